def M(file, definition, old, new, edit, claim, **k):
    return dict(file=file, definition=definition, old=old, new=new, edit=edit, claim=claim, **k)
MUTATIONS = [
# uploads
M('Model/Client.lean','redirectBehavior','then method else "GET", false)','then method else "GET", true)','the body is sent again after 301, 302 and 303','C94: the same requests for buffers and other readers'),
M('Model/Upload.lean','redirectBehaviorOnce','if status = 307 ∨ status = 308 then none else redirectBehavior method status','redirectBehavior method status','307 is followed although the body cannot be read again','C94: what is sent is what the reader delivers'),
M('Model/Upload.lean','Client.rawUpload','| (_, some e) => ((none, some (.plain e)), tr)','| (bytes, some _) => discoverRawRequest net url bytes tr','an error of the reader is ignored','C94: nothing is sent if the reader fails'),
M('Model/Upload.lean','Source.readAll','| (c, some e) :: _ => (c, if e = "EOF" then none else some e)','| (_, some e) :: _ => ([], if e = "EOF" then none else some e)','the bytes that come with the end are dropped','C94: all bytes are sent'),
M('Model/Upload.lean','Client.rawUpload','if !hasPrefix "https://".toList url then ((none, some (.plain refusal)), tr)','if !hasPrefix "http".toList url then ((none, some (.plain refusal)), tr)','other readers are sent over http too','C94: nothing is sent but over https'),
M('Model/Upload.lean','firstTrip','| some _ => roundTripBroken broken req tr','| some _ => roundTrip net req tr','a body that breaks off is sent as if it were complete','C94: what is sent if the reader fails'),
# streams
M('Model/Stream.lean','buildUnread','| [] => rest\n','| [] => if t = .stop top then rest else t :: rest\n','the token that ends the OFX element is left','C95: exactly one document is taken'),
M('Model/Stream.lean','buildUnread','| .start n => buildUnread strict n (top :: parents) rest','| .start _ => buildUnread strict top parents rest','elements inside others are not counted','C95: exactly one document is taken'),
M('Model/Stream.lean','taken','(lex strict nt s).length - unread.length) s','(lex strict nt s).length - unread.length + 1) s','one token too many is read','C95: exactly one document is taken'),
M('Model/Stream.lean','taken','(toBytes (s.take (s.length - rest.length))).length','(s.take (s.length - rest.length)).length','characters are counted as bytes','C95: exactly one document is taken'),
M('Model/Stream.lean','decodeFrom','| .ok (r, b\') => .ok (r, .buffered b\')','| .ok (r, b\') => .ok (r, .buffered (Bufio.new 1024 b\'.src))','the buffer is dropped for bufio.Readers too','C95: exactly one document is taken'),
M('Model/Stream.lean','decodeFrom','| .ok (r, b\') => .ok (r, .plain b\'.src)','| .ok (r, b\') => .ok (r, .plain ((b\'.buf, b\'.err) :: b\'.src))','the bytes read ahead are given back','C95: bytes are lost from other readers'),
M('Model/Stream.lean','decodeMany','| .ok (r, i) => r :: decodeMany env nt n i','| .ok (r, _) => r :: decodeMany env nt n i','the reader does not move on','C95: documents one after another'),
# waiting and sharing
M('Model/Stream.lean','decodeNext','let p := b.peek 1024\n  if guessVersion (latin1 p.1) then\n    match readXMLHeaders (lex true nt (utf8Decode (p.2.drain (size p.2)))) with\n    | .error e => .error e\n    | .ok (version, toks) => finish','let p := b.peek 64\n  if guessVersion (latin1 p.1) then\n    match readXMLHeaders (lex true nt (utf8Decode (p.2.drain (size p.2)))) with\n    | .error e => .error e\n    | .ok (version, toks) => finish','64 bytes are looked at for the header','C95, C96: documents are read and what is waited for'),
M('Model/Sharing.lean','messagesS','.setMsg a s i (fun m => (MessageImpl.valid version m).2) <|\n          match','.setMsg a s (i + 1) (fun m => (MessageImpl.valid version m).2) <|\n          match','the next message is validated instead','C97: requests may share messages'),
M('Model/Sharing.lean','SProg.step','| .setMsg a s i f k, m, tr =>\n    match m.pointer a s i with','| .setMsg a s i f k, m, tr =>\n    match m.pointer a s 0 with','what Valid does is done to the first message of the set','C97: requests may share messages'),
M('Model/Sharing.lean','sendS','            if resp.contentLength ≤ 0 ∧ resp.cookies.length > 0 then\n              marshalS a fun','            if resp.contentLength ≤ 0 ∧ resp.cookies.length > 1 then\n              marshalS a fun','no retry with one cookie','C72: a call does what it does alone'),
]
