def M(file, definition, old, new, edit, claim, **k):
    return dict(file=file, definition=definition, old=old, new=new, edit=edit, claim=claim, **k)
MUTATIONS = [
M('Model/Client.lean','redirectBehavior','some (if method = "GET" ∨ method = "HEAD" then method else "GET", false)','some (method, status = 302)','302 keeps method and body, as browsers once did not','C101_entrusted_partial: documents are passed on with 307 and 308 only'),
M('Model/Client.lean','httpLoop','if includeBody && again then body else []','if again then body else []','a body dropped by a redirection comes back with the next one','C101_entrusted_partial: only servers that got the document pass it on'),
M('Model/Client.lean','httpLoop','| .useLast => (some resp, tr)','| .useLast => roundTrip net next tr','ErrUseLastResponse still follows once','C101_guarded_partial'),
M('Model/Client.lean','vanguardRetry','post net defaultHttpClient url [contentType] cookies body tr','post net defaultHttpClient url [contentType] (("visited".toList, "1".toList) :: cookies) body tr','the second post carries a cookie nobody set','C102_own_partial'),
M('Model/Client.lean','vanguardRawRequest','(contentType :: c.userAgentHeader) [] body tr','(contentType :: c.userAgentHeader) [("visited".toList, "1".toList)] body tr','the first post carries a cookie nobody set','C102_own_partial'),
M('Model/Client.lean','Client.requestNoParse','match vanguardRetry net r.url d.bytes resp.cookies tr with','match vanguardRetry net (r.url ++ "login".toList) d.bytes resp.cookies tr with','the second post goes to another URL','C101_named_partial, C102_own_partial'),
]
