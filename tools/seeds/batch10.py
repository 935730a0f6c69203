def M(file, definition, old, new, edit, claim, **k):
    return dict(file=file, definition=definition, old=old, new=new, edit=edit, claim=claim, **k)
MUTATIONS = [
M('Model/Url.lean','urlUnescape','if badEscape mode x y then none else','if badEscape mode y x then none else','the digits of an escape are swapped when checked (again, after tightening)','C98: which hosts are allowed'),
M('Model/Url.lean','badEscape','| .host => x < 8 &&','| .host => x < 4 &&','escapes of letters are let through in hosts','C98: a URL with an escaped ASCII character in its host is refused'),
M('Model/Url.lean','parseAuthority','some (user, host) =>\n    match parseHost host with','some (user, host) =>\n    match parseHost (user ++ host) with','the user name is taken for part of the host','C98: the host of the URL is connected to'),
M('Model/Url.lean','userinfoChar','"-._:~','"-._~','passwords are refused','C98: URLs with user names'),
]
