def M(file, definition, old, new, edit, claim, **k):
    return dict(file=file, definition=definition, old=old, new=new, edit=edit, claim=claim, **k)
MUTATIONS = [
M('Model/Upload.lean','roundTripBroken','(some { r with id := tr.length + 1 }, tr ++','(some { r with id := tr.length + 2 }, tr ++','the response returned is not the one received','C94_answer'),
M('Model/Upload.lean','roundTripBroken','.opened { r with id := tr.length + 1 }])','.opened { r with id := tr.length + 2 }])','the response received is not the one returned','C94_answer'),
M('Model/Upload.lean','redirectLoop','redirectLoop net hc fuel (via ++ [req]) next (roundTrip net next (tr ++ [.closed resp.id]))','redirectLoop net hc fuel (via ++ [req]) next (roundTrip net next tr)','responses of followed redirections are not closed','C94_answer'),
M('Model/Url.lean','hasCtl','c.toNat < 32','c.toNat < 33','spaces are taken for control characters','C104_posted, C104_connects'),
M('Model/Url.lean','hasCtl','|| c.toNat = 127','|| c.toNat = 128','DEL is not a control character','C104_refused'),
M('Model/Url.lean','userinfoChar','"-._:~!$&\'()*+,;=%@"','"-._:~!$&\'()*+,;=%"',"'@' is refused in user names",'C104_connects'),
M('Model/Url.lean','userinfoChar','"-._:~!$&\'()*+,;=%@"','"-._:~!$&\'()*+,;=%@ "','spaces are allowed in user names','C104_refused'),
M('Model/Url.lean','parseAuthority','!user.all userinfoChar || (urlUnescape','!user.all userinfoChar && (urlUnescape','a user name is refused only if both checks fail','C104_refused'),
M('Model/Url.lean','badEscape','!(16 * x + y = 32) && !hostByte (16 * x + y)','!(16 * x + y = 32) && !hostByte (17 * x + y)','wrong value of an escape in a zone','C104_zone, C104_zone_refused'),
M('Model/Url.lean','badEscape','&& !(16 * x + y = 32) && !hostByte','&& !hostByte','spaces are refused in zones','C104_zone'),
M('Model/Url.lean','badEscape','&& !(16 * x + y = 32) && !hostByte (16 * x + y)','&& !(16 * x + y = 32) && hostByte (16 * x + y)','zones may hold only what hosts may not','C104_zone, C104_zone_refused'),
M('Model/Url.lean','parseHost','some (a ++ z ++ p)','some (a ++ p)','the zone is dropped','C104_zone'),
M('Model/Url.lean','parseAuthority',"match lastCut '@' authority with","match (splitC '@' authority).2.map (fun h => ((splitC '@' authority).1, h)) with","user names end at the first '@'",'C104_connects'),
]
