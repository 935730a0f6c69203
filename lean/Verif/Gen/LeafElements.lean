import Verif.Go.Str
/-
Generated by tools/gen_leaf.py from /repo/leaf_elements.go.
-/
namespace Ofx

/-- leaf_elements.go 11-344 `ofxLeafElements`. -/
def leafElements : List Str := [
  "ACCESSKEY".toList, "ACCRDINT".toList, "ACCTID".toList, "ACCTKEY".toList, "ACCTREQUIRED".toList, "ACCTTYPE".toList,
  "ADDR1".toList, "ADDR2".toList, "ADDR3".toList, "ADJAMT".toList, "ADJDATE".toList, "ADJDESC".toList,
  "ADJNO".toList, "APPID".toList, "APPVER".toList, "ASSETCLASS".toList, "AUCTION".toList, "AUTHTOKEN".toList,
  "AUTHTOKENFIRST".toList, "AUTHTOKENINFOURL".toList, "AUTHTOKENLABEL".toList, "AVAILACCTS".toList, "AVAILCASH".toList, "AVGCOSTBASIS".toList,
  "BALAMT".toList, "BALCLOSE".toList, "BALDNLD".toList, "BALMIN".toList, "BALOPEN".toList, "BALTYPE".toList,
  "BANKID".toList, "BILLREFINFO".toList, "BRANCHID".toList, "BROKERID".toList, "BUYPOWER".toList, "BUYTYPE".toList,
  "CALLPRICE".toList, "CALLTYPE".toList, "CANADDPAYEE".toList, "CANBILLPAY".toList, "CANCELWND".toList, "CANEMAIL".toList,
  "CANMODMDLS".toList, "CANMODPMTS".toList, "CANMODXFERS".toList, "CANNOTIFY".toList, "CANPENDING".toList, "CANRECUR".toList,
  "CANSCHED".toList, "CANUSEDESC".toList, "CANUSERANGE".toList, "CASESEN".toList, "CHARTYPE".toList, "CHECKING".toList,
  "CHECKNUM".toList, "CHGPINFIRST".toList, "CHGUSERINFO".toList, "CHKANDDEB".toList, "CHKERROR".toList, "CHKNUMEND".toList,
  "CHKNUMSTART".toList, "CHKSTATUS".toList, "CITY".toList, "CLIENTACTREQ".toList, "CLIENTROUTING".toList, "CLIENTUID".toList,
  "CLIENTUIDREQ".toList, "CLOSINGAVAIL".toList, "CLTCOOKIE".toList, "CODE".toList, "COMMISSION".toList, "CONFMSG".toList,
  "CORRECTACTION".toList, "CORRECTFITID".toList, "COUNTRY".toList, "COUPONFREQ".toList, "COUPONRT".toList, "CREDITLIMIT".toList,
  "CSPHONE".toList, "CURDEF".toList, "CURRATE".toList, "CURSYM".toList, "DATEBIRTH".toList, "DAYPHONE".toList,
  "DAYSTOPAY".toList, "DAYSWITH".toList, "DEBADJ".toList, "DEBTCLASS".toList, "DEBTTYPE".toList, "DENOMINATOR".toList,
  "DEPANDCREDIT".toList, "DESC".toList, "DFLTDAYSTOPAY".toList, "DIFFFIRSTPMT".toList, "DIFFLASTPMT".toList, "DOMXFERFEE".toList,
  "DSCAMT".toList, "DSCDATE".toList, "DSCDESC".toList, "DSCRATE".toList, "DTACCTUP".toList, "DTASOF".toList,
  "DTAUCTION".toList, "DTAVAIL".toList, "DTCALL".toList, "DTCHANGED".toList, "DTCLIENT".toList, "DTCLOSE".toList,
  "DTCOUPON".toList, "DTCREATED".toList, "DTDUE".toList, "DTEND".toList, "DTEXPIRE".toList, "DTINFOCHG".toList,
  "DTMAT".toList, "DTNEXT".toList, "DTOPEN".toList, "DTPLACED".toList, "DTPMTDUE".toList, "DTPMTPRC".toList,
  "DTPOSTED".toList, "DTPOSTEND".toList, "DTPOSTSTART".toList, "DTPRICEASOF".toList, "DTPROFUP".toList, "DTPURCHASE".toList,
  "DTSERVER".toList, "DTSETTLE".toList, "DTSTART".toList, "DTTRADE".toList, "DTUSER".toList, "DTXFERPRC".toList,
  "DTXFERPRJ".toList, "DTYIELDASOF".toList, "DURATION".toList, "EMAIL".toList, "EVEPHONE".toList, "EXTDPMTCHK".toList,
  "EXTDPMTFOR".toList, "FAXPHONE".toList, "FEE".toList, "FEEMSG".toList, "FEES".toList, "FIASSETCLASS".toList,
  "FICERTID".toList, "FID".toList, "FIID".toList, "FINALAMT".toList, "FINAME".toList, "FINCHG".toList,
  "FIRSTNAME".toList, "FITID".toList, "FRACCASH".toList, "FREQ".toList, "FROM".toList, "GAIN".toList,
  "GENUSERKEY".toList, "GETMIMESUP".toList, "HASEXTDPMT".toList, "HELDINACCT".toList, "IDSCOPE".toList, "INCBAL".toList,
  "INCIMAGES".toList, "INCLUDE".toList, "INCOMETYPE".toList, "INCOO".toList, "INITIALAMT".toList, "INTLXFERFEE".toList,
  "INVACCTTYPE".toList, "INVALIDACCTTYPE".toList, "INVDATE".toList, "INVDESC".toList, "INVNO".toList, "INVPAIDAMT".toList,
  "INVTOTALAMT".toList, "LANGUAGE".toList, "LASTNAME".toList, "LIMITPRICE".toList, "LITMAMT".toList, "LITMDESC".toList,
  "LOAD".toList, "LOSTSYNC".toList, "MAILSUP".toList, "MARGINBALANCE".toList, "MARKDOWN".toList, "MARKUP".toList,
  "MAX".toList, "MEMO".toList, "MESSAGE".toList, "MFACHALLENGEFIRST".toList, "MFACHALLENGESUPT".toList, "MFAPHRASEA".toList,
  "MFAPHRASEID".toList, "MFAPHRASELABEL".toList, "MFTYPE".toList, "MIDDLENAME".toList, "MIN".toList, "MINPMTDUE".toList,
  "MINUNITS".toList, "MKTGINFO".toList, "MKTVAL".toList, "MODELWND".toList, "MODPENDING".toList, "NAME".toList,
  "NEWUNITS".toList, "NEWUSERPASS".toList, "NINSTS".toList, "NONCE".toList, "NUMERATOR".toList, "OFXSEC".toList,
  "OLDUNITS".toList, "OODNLD".toList, "OPTACTION".toList, "OPTBUYTYPE".toList, "OPTIONLEVEL".toList, "OPTSELLTYPE".toList,
  "OPTTYPE".toList, "ORG".toList, "PARVALUE".toList, "PAYACCT".toList, "PAYANDCREDIT".toList, "PAYEEID".toList,
  "PAYEELSTID".toList, "PAYINSTRUCT".toList, "PERCENT".toList, "PHONE".toList, "PINCH".toList, "PMTBYADDR".toList,
  "PMTBYPAYEEID".toList, "PMTBYXFER".toList, "PMTPRCCODE".toList, "POSDNLD".toList, "POSTALCODE".toList, "POSTPROCWND".toList,
  "POSTYPE".toList, "PROCDAYSOFF".toList, "PROCENDTM".toList, "PURANDADV".toList, "RATING".toList, "RECSRVRTID".toList,
  "REFNUM".toList, "REFRESH".toList, "REFRESHSUPT".toList, "REINVCG".toList, "REINVDIV".toList, "REJECTIFMISSING".toList,
  "RELFITID".toList, "RELTYPE".toList, "RESPFILEER".toList, "RESTRICTION".toList, "SECLISTRQDNLD".toList, "SECNAME".toList,
  "SECURED".toList, "SECURITYNAME".toList, "SELLALL".toList, "SELLREASON".toList, "SELLTYPE".toList, "SESSCOOKIE".toList,
  "SEVERITY".toList, "SHORTBALANCE".toList, "SHPERCTRCT".toList, "SIC".toList, "SIGNONREALM".toList, "SPACES".toList,
  "SPECIAL".toList, "SPNAME".toList, "SRVRTID".toList, "STATE".toList, "STOCKTYPE".toList, "STOPPRICE".toList,
  "STPCHKFEE".toList, "STRIKEPRICE".toList, "STSVIAMODS".toList, "SUBACCT".toList, "SUBACCTFROM".toList, "SUBACCTSEC".toList,
  "SUBACCTTO".toList, "SUBJECT".toList, "SUPTXDL".toList, "SVC".toList, "SVCSTATUS".toList, "SWITCHALL".toList,
  "SYNCMODE".toList, "TAN".toList, "TAXES".toList, "TAXEXEMPT".toList, "TAXID".toList, "TEMPPASS".toList,
  "TFERACTION".toList, "TICKER".toList, "TO".toList, "TOKEN".toList, "TOKENONLY".toList, "TOTAL".toList,
  "TOTALFEES".toList, "TOTALINT".toList, "TRANDNLD".toList, "TRANSPSEC".toList, "TRNAMT".toList, "TRNTYPE".toList,
  "TRNUID".toList, "TSKEYEXPIRE".toList, "TSPHONE".toList, "TYPEDESC".toList, "UNIQUEID".toList, "UNIQUEIDTYPE".toList,
  "UNITPRICE".toList, "UNITS".toList, "UNITSSTREET".toList, "UNITSUSER".toList, "UNITTYPE".toList, "URL".toList,
  "USEHTML".toList, "USERCRED1".toList, "USERCRED1LABEL".toList, "USERCRED2".toList, "USERCRED2LABEL".toList, "USERID".toList,
  "USERKEY".toList, "USERPASS".toList, "USPRODUCTTYPE".toList, "VALUE".toList, "VER".toList, "WITHHOLDING".toList,
  "XFERDAYSWITH".toList, "XFERDEST".toList, "XFERDFLTDAYSTOPAY".toList, "XFERPRCCODE".toList, "XFERSRC".toList, "YIELD".toList,
  "YIELDTOCALL".toList, "YIELDTOMAT".toList]

end Ofx
