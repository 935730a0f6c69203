def M(file, definition, old, new, edit, claim, **k):
    return dict(file=file, definition=definition, old=old, new=new, edit=edit, claim=claim, **k)
MUTATIONS = [
# URLs
M('Model/Url.lean','unhex','some (c.toNat - 87)','some (c.toNat - 86)','a to f are read as one more','C48: %0d is CR'),
M('Model/Url.lean','hostByte','=:[]<>\\"-_.~".toList.map','=:[]<>\\"_.~".toList.map','hyphens are not allowed in hosts','C98: the host of the URL is connected to'),
M('Model/Url.lean','urlUnescape','if badEscape mode x y then none else','if badEscape mode y x then none else','the digits of an escape are swapped when checked','C98: which hosts are allowed',),
M('Model/Url.lean','lastCut','match lastCut c xs with\n    | some (a, b) => some (x :: a, b)\n    | none => if x = c then some ([], xs) else none','if x = c then some ([], xs)\n    else match lastCut c xs with\n    | some (a, b) => some (x :: a, b)\n    | none => none','the first instead of the last colon is looked for','C98: IPv6 addresses with ports'),
M('Model/Url.lean','validOptionalPort','| [] => true','| [] => false','a host without a port is refused after brackets','C98: IPv6 addresses'),
M('Model/Url.lean','parseHttps','splitC \'?\' (u.drop 8)','splitC \'?\' (u.drop 7)','a slash too many is left','C98: the host of the URL is connected to'),
M('Model/Url.lean','parseHttps','let (authority, path) := splitC \'/\' rest','let (authority, path) := splitC \':\' rest','the host ends at the colon','C98: the port of the URL is connected to'),
M('Model/Url.lean','splitHostPort','then ((host.drop 1).dropLast, port) else (host, port)','then (host, port) else (host, port)','brackets are kept','C98_brackets: the brackets are lost'),
M('Model/Url.lean','splitHostPort','then (h, p) else (hostPort, [])','then (h, []) else (hostPort, [])','the port is forgotten','C98: the port of the URL is connected to'),
M('Model/Client.lean','discoverPost','discoverHeaders path u.hostname body.length','discoverHeaders path u.host body.length','the Host line names the port','C98_port_unsaid: the port is not named'),
M('Model/Client.lean','discoverPost','if u.path = [] then [\'/\'] else u.path','u.path','an empty path is sent as it is','C98: the target of the request'),
M('Model/Client.lean','discoverPost','u.host ++ ":443".toList else u.host','u.host ++ ":80".toList else u.host','port 80 is the default','C98: port 443 if none is given'),
M('Model/Client.lean','discoverHeaders','"POST ".toList ++ path ++ " HTTP/1.1','"GET ".toList ++ path ++ " HTTP/1.1','the body is sent with GET','C98: the first line is a POST'),
# cookies
M('Model/Cookie.lean','readSetCookie','let first := trimHttp (splitC \';\' (trimHttp line)).1','let first := trimHttp line','attributes are taken for part of the value','C99: values as set'),
M('Model/Cookie.lean','parseCookieValue','(raw.drop 1).dropLast else raw','raw else raw','values in quotes are refused','C99_quotes'),
M('Model/Cookie.lean','addCookie','header ++ "; ".toList ++ s else s','header ++ ", ".toList ++ s else s','cookies are separated by commas','C99: the Cookie line'),
M('Model/Cookie.lean','addCookie','if header ≠ [] then header ++ "; ".toList ++ s else s','s','only the last cookie is sent','C99: all cookies are returned'),
M('Model/Cookie.lean','sanitizeCookieValue','s.filter cookieValueChar','s.filter tokenChar','characters that are no token characters are dropped from values','C99: values as set'),
M('Model/Cookie.lean','tokenChar','"!#$%&\'*+-.^_`|~"','"!#$%&\'*+-.^`|~"','names with underscores are refused','C99: names as set'),
M('Model/Cookie.lean','readSetCookies','lines.filterMap readSetCookie','(lines.filterMap readSetCookie).take 1','only the first cookie is read','C99: all cookies are returned'),
M('Model/Cookie.lean','cookieLine','cookies.foldl addCookie []','cookies.reverse.foldl addCookie []','the cookies are returned in reverse order','C99: in order'),
]
