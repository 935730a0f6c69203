def M(file, definition, old, new, edit, claim, **k):
    return dict(file=file, definition=definition, old=old, new=new, edit=edit, claim=claim, **k)
MUTATIONS = [
M('Model/NewDate.lean','newDate','let hm := norm hour ms.1 60','let hm := norm hour min 60','seconds beyond a minute are not carried','C66'),
M('Model/NewDate.lean','newDate','isLeap ym.1 = true ∧ ym.2 + 1 ≥ 3','isLeap ym.1 = true ∧ ym.2 + 1 ≥ 2','the leap day comes before February','C66'),
M('Model/NewDate.lean','newDate','utc ≥ (loc wall).stop then','utc > (loc wall).stop then','the old zone still holds at the moment it ends','C66'),
M('Model/NewDate.lean','norm','if a.2 ≥ base then','if a.2 > base then','a field equal to its limit is not carried','C66'),
M('Model/Disk.lean','fileOps','.create p.1 :: (cut p.2).map (.append p.1)','(cut p.2).map (.append p.1)','files are not created','C85'),
M('Model/Disk.lean','FileOp.on','(d n).map (· ++ bytes)','(d n).map (bytes ++ ·)','later pieces are written before earlier ones','C85'),
M('Model/Main.lean','parseBool','["0", "f", "F", "false", "FALSE", "False"]','["0", "f", "F", "false", "FALSE", "False", "no"]','no is a truth value','C65'),
M('Model/Main.lean','underscoreOK',"if lowerC x = 'b' ∨ lowerC x = 'o' ∨ lowerC x = 'x' then underscoreLoop (lowerC x = 'x') .digit r","if lowerC x = 'b' ∨ lowerC x = 'x' then underscoreLoop (lowerC x = 'x') .digit r",'0o_7 is refused','C65'),
M('Model/Main.lean','parseFlags',"body.head? = some '-' ∨ body.head? = some '=' then .exit 2","body.head? = some '=' then .exit 2",'three dashes are taken for the name of a flag','C65'),
M('Model/Main.lean','splitFlag',"some ((cs.dropWhile (· ≠ '=')).tail)","some (cs.dropWhile (· ≠ '='))",'values begin with the equals sign','C65'),
M('Model/Main.lean','flagBody',"  | ['-', '-'] => none\n","",'two dashes do not end the flags','C65'),
M('Model/Main.lean','mainProgram','| some c => runArgs w c rest','| some c => runArgs w c (name :: rest)','the name of the command is parsed as a flag','C64'),
M('Model/Cli.lean','padRight',"List.replicate (n - s.length) ' '","List.replicate (n + 1 - s.length) ' '",'columns are a blank wider','C60, C84'),
M('Model/Cli.lean','printCC','forPrint (printCCTransaction stmt.CurDef) l.Transactions','forPrint (printCCTransaction stmt.CurDef) l.Transactions.tail','the first card transaction is not listed','C84'),
M('Model/Cli.lean','printInvBankTransaction','forPrint (printTransaction curDef) b.Transactions','forPrint (printTransaction curDef) []','bank transactions of investment accounts are not listed','C60, C84'),
M('Model/Cli.lean','printAccounts','forPrint (fun acct => say (accountText acct)) a.AcctInfo','forPrint (fun acct => say (accountText acct)) a.AcctInfo.reverse','accounts in reverse order','C60'),
M('Model/Cli.lean','printInvBuy','Amount.string ib.UnitPrice ++','Amount.string ib.Units ++','purchases show the number of units for the price','C60'),
M('Model/Cli.lean','ccDownload','saveCommand w f (prepareCC w f)','saveCommand w f (prepareBank w f)','download-cc asks for the bank statement','C62'),
M('Model/Cli.lean','downloadProfileCheckFlags','{ f with username := anonymous, password := anonymous }','{ f with username := anonymous }','anonymous users are asked for a password','C61, C62'),
M('Model/Cli.lean','attemptText','natStr delay ++ "ms...','natStr attempts ++ "ms...','the wrong delay is shown','C51, C81'),
M('Model/Cli.lean','detectSettings','[false, true]) versions)','[false]) versions)','unindented documents are not tried','C51'),
M('Model/Nil.lean','addEntrySetErrs','(addEntryErrs version errs (f s)).bind fun errs =>','(addEntryErrs version [] (f s)).bind fun errs =>','errors of earlier sets are forgotten','C100_valid_partial'),
M('Model/Nil.lean','MsgKind.type','| .securityList => .rs .secList','| .securityList => .rq .secList','a nil security list is taken for a request','C100'),
]
