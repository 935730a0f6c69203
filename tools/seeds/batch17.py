def M(file, definition, old, new, edit, claim, **k):
    return dict(file=file, definition=definition, old=old, new=new, edit=edit, claim=claim, **k)
F='Model/Main.lean'
MUTATIONS = [
M(F,'underscoreOK',"if lowerC x = 'b' ∨ lowerC x = 'o' ∨ lowerC x = 'x' then underscoreLoop (lowerC x = 'x') .digit r","if lowerC x = 'b' ∨ lowerC x = 'x' then underscoreLoop (lowerC x = 'x') .digit r",'0o_7 is refused (again, with delays specified as literals)','C65'),
M(F,'underscoreLoop','| i, [] => i != .underscore','| _, [] => true','a trailing underscore is accepted','C65'),
M(F,'underscoreLoop','(if i = .digit then underscoreLoop hex .underscore cs else false)','underscoreLoop hex .underscore cs','leading and repeated underscores are accepted','C65'),
M(F,'baseOf',"  | '0' :: r => (8, r)","  | '0' :: r => (10, r)",'two digits after a zero are decimal','C65'),
M(F,'parseDigits','if d ≥ base then none','if d > base then none','a digit equal to the base is accepted','C65'),
M(F,'parseDigits','n * base + d ≥ 2 ^ 64','n * base + d > 2 ^ 64','2^64 is accepted','C65'),
M(F,'digitOf',"(lowerC c).toNat - 'a'.toNat + 10","c.toNat - 'a'.toNat + 10",'capital letters have the value ten','C65'),
]
