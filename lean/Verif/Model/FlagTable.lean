import Verif.Tactics
/-! The table of flags (`src/flags.def`) and the tables of the modes (`src/context.c`,
`context_setModeAux`).  Generated by `tools/gen_flagtable.py`; nothing but the texts and the
categories of the flags is left out. -/
namespace Splint.Flag

/-- A list of characters written as a string. -/
syntax:max "c!" str : term
macro_rules
  | `(c!$s:str) => do
    let cs := (s.getString.toList.map (Lean.Syntax.mkCharLit ·)).toArray
    `(([$cs,*] : List Char))

/-- The kinds of argument of a flag, `src/flags.c:120-129` (`argcode`). -/
inductive Arg where
  | none | special | number | char | string | file | path | dir
deriving DecidableEq, Repr

/-- One entry of `flags[]`, `src/flags.c:157-171` (`fflag`).  Of the two categories only whether the
first is `FK_NAMES` is kept. -/
structure Row where
  name : List Char
  names : Bool
  special : Bool
  idem : Bool
  glob : Bool
  mode : Bool
  arg : Arg

/-! The codes are the positions in the table: `src/Makefile.am:328` makes the enumeration
`src/Headers/flag_codes.h:16-23` of the lines of `flags.def` that mention them. -/
/-- `src/flags.def:74`. -/ abbrev FLG_NULL : Nat := 0
/-- `src/flags.def:83`. -/ abbrev FLG_NULLDEREF : Nat := 1
/-- `src/flags.def:95`. -/ abbrev FLG_NULLPASS : Nat := 2
/-- `src/flags.def:106`. -/ abbrev FLG_NULLRET : Nat := 3
/-- `src/flags.def:117`. -/ abbrev FLG_NULLSTATE : Nat := 4
/-- `src/flags.def:126`. -/ abbrev FLG_NULLASSIGN : Nat := 5
/-- `src/flags.def:136`. -/ abbrev FLG_NULLINIT : Nat := 6
/-- `src/flags.def:151`. -/ abbrev FLG_USEDEF : Nat := 7
/-- `src/flags.def:159`. -/ abbrev FLG_MUSTDEFINE : Nat := 8
/-- `src/flags.def:167`. -/ abbrev FLG_UNIONDEF : Nat := 9
/-- `src/flags.def:176`. -/ abbrev FLG_COMPDEF : Nat := 10
/-- `src/flags.def:186`. -/ abbrev FLG_FULLINITBLOCK : Nat := 11
/-- `src/flags.def:194`. -/ abbrev FLG_INITALLELEMENTS : Nat := 12
/-- `src/flags.def:202`. -/ abbrev FLG_INITSIZE : Nat := 13
/-- `src/flags.def:211`. -/ abbrev FLG_IMPOUTS : Nat := 14
/-- `src/flags.def:223`. -/ abbrev FLG_INCONDEFS : Nat := 15
/-- `src/flags.def:231`. -/ abbrev FLG_MATCHFIELDS : Nat := 16
/-- `src/flags.def:239`. -/ abbrev FLG_FCNDEREF : Nat := 17
/-- `src/flags.def:249`. -/ abbrev FLG_REALCOMPARE : Nat := 18
/-- `src/flags.def:262`. -/ abbrev FLG_REALRELATECOMPARE : Nat := 19
/-- `src/flags.def:275`. -/ abbrev FLG_UNSIGNEDCOMPARE : Nat := 20
/-- `src/flags.def:283`. -/ abbrev FLG_POINTERARITH : Nat := 21
/-- `src/flags.def:290`. -/ abbrev FLG_NULLPOINTERARITH : Nat := 22
/-- `src/flags.def:297`. -/ abbrev FLG_PTRNUMCOMPARE : Nat := 23
/-- `src/flags.def:304`. -/ abbrev FLG_STRICTOPS : Nat := 24
/-- `src/flags.def:311`. -/ abbrev FLG_BITWISEOPS : Nat := 25
/-- `src/flags.def:320`. -/ abbrev FLG_SHIFTNEGATIVE : Nat := 26
/-- `src/flags.def:328`. -/ abbrev FLG_SHIFTIMPLEMENTATION : Nat := 27
/-- `src/flags.def:336`. -/ abbrev FLG_SIZEOFTYPE : Nat := 28
/-- `src/flags.def:345`. -/ abbrev FLG_SIZEOFFORMALARRAY : Nat := 29
/-- `src/flags.def:355`. -/ abbrev FLG_FIXEDFORMALARRAY : Nat := 30
/-- `src/flags.def:365`. -/ abbrev FLG_INCOMPLETETYPE : Nat := 31
/-- `src/flags.def:373`. -/ abbrev FLG_FORMALARRAY : Nat := 32
/-- `src/flags.def:388`. -/ abbrev FLG_BOOLTYPE : Nat := 33
/-- `src/flags.def:395`. -/ abbrev FLG_BOOLFALSE : Nat := 34
/-- `src/flags.def:402`. -/ abbrev FLG_BOOLTRUE : Nat := 35
/-- `src/flags.def:409`. -/ abbrev FLG_LIKELYBOOL : Nat := 36
/-- `src/flags.def:420`. -/ abbrev FLG_BOOLCOMPARE : Nat := 37
/-- `src/flags.def:431`. -/ abbrev FLG_BOOLOPS : Nat := 38
/-- `src/flags.def:440`. -/ abbrev FLG_PTRNEGATE : Nat := 39
/-- `src/flags.def:447`. -/ abbrev FLG_PREDASSIGN : Nat := 40
/-- `src/flags.def:458`. -/ abbrev FLG_PREDBOOL : Nat := 41
/-- `src/flags.def:466`. -/ abbrev FLG_PREDBOOLINT : Nat := 42
/-- `src/flags.def:473`. -/ abbrev FLG_PREDBOOLPTR : Nat := 43
/-- `src/flags.def:480`. -/ abbrev FLG_PREDBOOLOTHERS : Nat := 44
/-- `src/flags.def:492`. -/ abbrev FLG_ABSTRACT : Nat := 45
/-- `src/flags.def:500`. -/ abbrev FLG_ABSTRACTCOMPARE : Nat := 46
/-- `src/flags.def:509`. -/ abbrev FLG_NUMABSTRACT : Nat := 47
/-- `src/flags.def:517`. -/ abbrev FLG_NUMABSTRACTCAST : Nat := 48
/-- `src/flags.def:525`. -/ abbrev FLG_NUMABSTRACTLIT : Nat := 49
/-- `src/flags.def:533`. -/ abbrev FLG_NUMABSTRACTINDEX : Nat := 50
/-- `src/flags.def:541`. -/ abbrev FLG_NUMABSTRACTPRINT : Nat := 51
/-- `src/flags.def:549`. -/ abbrev FLG_IMPABSTRACT : Nat := 52
/-- `src/flags.def:560`. -/ abbrev FLG_ACCESSMODULE : Nat := 53
/-- `src/flags.def:569`. -/ abbrev FLG_ACCESSFILE : Nat := 54
/-- `src/flags.def:578`. -/ abbrev FLG_ACCESSCZECH : Nat := 55
/-- `src/flags.def:587`. -/ abbrev FLG_ACCESSSLOVAK : Nat := 56
/-- `src/flags.def:596`. -/ abbrev FLG_ACCESSCZECHOSLOVAK : Nat := 57
/-- `src/flags.def:605`. -/ abbrev FLG_ACCESSALL : Nat := 58
/-- `src/flags.def:615`. -/ abbrev FLG_MUTREP : Nat := 59
/-- `src/flags.def:633`. -/ abbrev FLG_MUSTFREEFRESH : Nat := 60
/-- `src/flags.def:642`. -/ abbrev FLG_MUSTFREEONLY : Nat := 61
/-- `src/flags.def:651`. -/ abbrev FLG_MUSTFREE : Nat := 62
/-- `src/flags.def:659`. -/ abbrev FLG_USERELEASED : Nat := 63
/-- `src/flags.def:668`. -/ abbrev FLG_STRICTUSERELEASED : Nat := 64
/-- `src/flags.def:677`. -/ abbrev FLG_COMPDESTROY : Nat := 65
/-- `src/flags.def:690`. -/ abbrev FLG_STRICTDESTROY : Nat := 66
/-- `src/flags.def:699`. -/ abbrev FLG_DEPARRAYS : Nat := 67
/-- `src/flags.def:710`. -/ abbrev FLG_BRANCHSTATE : Nat := 68
/-- `src/flags.def:720`. -/ abbrev FLG_STRICTBRANCHSTATE : Nat := 69
/-- `src/flags.def:731`. -/ abbrev FLG_MEMCHECKS : Nat := 70
/-- `src/flags.def:739`. -/ abbrev FLG_COMPMEMPASS : Nat := 71
/-- `src/flags.def:748`. -/ abbrev FLG_RETSTACK : Nat := 72
/-- `src/flags.def:759`. -/ abbrev FLG_MEMTRANS : Nat := 73
/-- `src/flags.def:767`. -/ abbrev FLG_DEPENDENTTRANS : Nat := 74
/-- `src/flags.def:775`. -/ abbrev FLG_NEWREFTRANS : Nat := 75
/-- `src/flags.def:783`. -/ abbrev FLG_ONLYTRANS : Nat := 76
/-- `src/flags.def:794`. -/ abbrev FLG_ONLYUNQGLOBALTRANS : Nat := 77
/-- `src/flags.def:806`. -/ abbrev FLG_OWNEDTRANS : Nat := 78
/-- `src/flags.def:817`. -/ abbrev FLG_FRESHTRANS : Nat := 79
/-- `src/flags.def:829`. -/ abbrev FLG_SHAREDTRANS : Nat := 80
/-- `src/flags.def:838`. -/ abbrev FLG_TEMPTRANS : Nat := 81
/-- `src/flags.def:848`. -/ abbrev FLG_KEPTTRANS : Nat := 82
/-- `src/flags.def:858`. -/ abbrev FLG_KEEPTRANS : Nat := 83
/-- `src/flags.def:867`. -/ abbrev FLG_IMMEDIATETRANS : Nat := 84
/-- `src/flags.def:876`. -/ abbrev FLG_REFCOUNTTRANS : Nat := 85
/-- `src/flags.def:885`. -/ abbrev FLG_STATICTRANS : Nat := 86
/-- `src/flags.def:893`. -/ abbrev FLG_UNKNOWNTRANS : Nat := 87
/-- `src/flags.def:901`. -/ abbrev FLG_STATICINITTRANS : Nat := 88
/-- `src/flags.def:909`. -/ abbrev FLG_UNKNOWNINITTRANS : Nat := 89
/-- `src/flags.def:917`. -/ abbrev FLG_READONLYTRANS : Nat := 90
/-- `src/flags.def:925`. -/ abbrev FLG_PASSUNKNOWN : Nat := 91
/-- `src/flags.def:935`. -/ abbrev FLG_READONLYSTRINGS : Nat := 92
/-- `src/flags.def:944`. -/ abbrev FLG_MEMIMPLICIT : Nat := 93
/-- `src/flags.def:951`. -/ abbrev FLG_PARAMIMPTEMP : Nat := 94
/-- `src/flags.def:958`. -/ abbrev FLG_ALLIMPONLY : Nat := 95
/-- `src/flags.def:966`. -/ abbrev FLG_CODEIMPONLY : Nat := 96
/-- `src/flags.def:973`. -/ abbrev FLG_SPECALLIMPONLY : Nat := 97
/-- `src/flags.def:980`. -/ abbrev FLG_GLOBIMPONLY : Nat := 98
/-- `src/flags.def:987`. -/ abbrev FLG_RETIMPONLY : Nat := 99
/-- `src/flags.def:994`. -/ abbrev FLG_STRUCTIMPONLY : Nat := 100
/-- `src/flags.def:1001`. -/ abbrev FLG_SPECGLOBIMPONLY : Nat := 101
/-- `src/flags.def:1008`. -/ abbrev FLG_SPECRETIMPONLY : Nat := 102
/-- `src/flags.def:1015`. -/ abbrev FLG_SPECSTRUCTIMPONLY : Nat := 103
/-- `src/flags.def:1033`. -/ abbrev FLG_ALIASUNIQUE : Nat := 104
/-- `src/flags.def:1041`. -/ abbrev FLG_MAYALIASUNIQUE : Nat := 105
/-- `src/flags.def:1049`. -/ abbrev FLG_MUSTNOTALIAS : Nat := 106
/-- `src/flags.def:1057`. -/ abbrev FLG_RETALIAS : Nat := 107
/-- `src/flags.def:1066`. -/ abbrev FLG_GLOBALIAS : Nat := 108
/-- `src/flags.def:1076`. -/ abbrev FLG_CHECKSTRICTGLOBALIAS : Nat := 109
/-- `src/flags.def:1084`. -/ abbrev FLG_CHECKEDGLOBALIAS : Nat := 110
/-- `src/flags.def:1092`. -/ abbrev FLG_CHECKMODGLOBALIAS : Nat := 111
/-- `src/flags.def:1100`. -/ abbrev FLG_UNCHECKEDGLOBALIAS : Nat := 112
/-- `src/flags.def:1111`. -/ abbrev FLG_EXPOSETRANS : Nat := 113
/-- `src/flags.def:1119`. -/ abbrev FLG_OBSERVERTRANS : Nat := 114
/-- `src/flags.def:1127`. -/ abbrev FLG_REPEXPOSE : Nat := 115
/-- `src/flags.def:1137`. -/ abbrev FLG_RETEXPOSE : Nat := 116
/-- `src/flags.def:1150`. -/ abbrev FLG_ASSIGNEXPOSE : Nat := 117
/-- `src/flags.def:1163`. -/ abbrev FLG_CASTEXPOSE : Nat := 118
/-- `src/flags.def:1173`. -/ abbrev FLG_REDUNDANTSHAREQUAL : Nat := 119
/-- `src/flags.def:1181`. -/ abbrev FLG_MISPLACEDSHAREQUAL : Nat := 120
/-- `src/flags.def:1196`. -/ abbrev FLG_MODIFIES : Nat := 121
/-- `src/flags.def:1205`. -/ abbrev FLG_MUSTMOD : Nat := 122
/-- `src/flags.def:1216`. -/ abbrev FLG_MODOBSERVER : Nat := 123
/-- `src/flags.def:1225`. -/ abbrev FLG_MODOBSERVERUNCON : Nat := 124
/-- `src/flags.def:1234`. -/ abbrev FLG_MODINTERNALSTRICT : Nat := 125
/-- `src/flags.def:1243`. -/ abbrev FLG_MODFILESYSTEM : Nat := 126
/-- `src/flags.def:1251`. -/ abbrev FLG_MODUNSPEC : Nat := 127
/-- `src/flags.def:1259`. -/ abbrev FLG_MODNOMODS : Nat := 128
/-- `src/flags.def:1270`. -/ abbrev FLG_MODUNCON : Nat := 129
/-- `src/flags.def:1281`. -/ abbrev FLG_MODUNCONNOMODS : Nat := 130
/-- `src/flags.def:1293`. -/ abbrev FLG_GLOBALSIMPMODIFIESNOTHING : Nat := 131
/-- `src/flags.def:1303`. -/ abbrev FLG_MODIFIESIMPNOGLOBALS : Nat := 132
/-- `src/flags.def:1318`. -/ abbrev FLG_GLOBSTATE : Nat := 133
/-- `src/flags.def:1327`. -/ abbrev FLG_GLOBALS : Nat := 134
/-- `src/flags.def:1339`. -/ abbrev FLG_USEALLGLOBS : Nat := 135
/-- `src/flags.def:1348`. -/ abbrev FLG_INTERNALGLOBS : Nat := 136
/-- `src/flags.def:1357`. -/ abbrev FLG_INTERNALGLOBSNOGLOBS : Nat := 137
/-- `src/flags.def:1366`. -/ abbrev FLG_WARNMISSINGGLOBALS : Nat := 138
/-- `src/flags.def:1376`. -/ abbrev FLG_WARNMISSINGGLOBALSNOGLOBS : Nat := 139
/-- `src/flags.def:1385`. -/ abbrev FLG_GLOBUNSPEC : Nat := 140
/-- `src/flags.def:1398`. -/ abbrev FLG_ALLGLOBALS : Nat := 141
/-- `src/flags.def:1405`. -/ abbrev FLG_CHECKSTRICTGLOBALS : Nat := 142
/-- `src/flags.def:1412`. -/ abbrev FLG_IMPCHECKEDSPECGLOBALS : Nat := 143
/-- `src/flags.def:1419`. -/ abbrev FLG_IMPCHECKMODSPECGLOBALS : Nat := 144
/-- `src/flags.def:1426`. -/ abbrev FLG_IMPCHECKEDSTRICTSPECGLOBALS : Nat := 145
/-- `src/flags.def:1433`. -/ abbrev FLG_IMPCHECKEDGLOBALS : Nat := 146
/-- `src/flags.def:1440`. -/ abbrev FLG_IMPCHECKMODGLOBALS : Nat := 147
/-- `src/flags.def:1447`. -/ abbrev FLG_IMPCHECKEDSTRICTGLOBALS : Nat := 148
/-- `src/flags.def:1454`. -/ abbrev FLG_IMPCHECKEDSTATICS : Nat := 149
/-- `src/flags.def:1461`. -/ abbrev FLG_IMPCHECKMODSTATICS : Nat := 150
/-- `src/flags.def:1468`. -/ abbrev FLG_IMPCHECKMODINTERNALS : Nat := 151
/-- `src/flags.def:1476`. -/ abbrev FLG_IMPCHECKEDSTRICTSTATICS : Nat := 152
/-- `src/flags.def:1483`. -/ abbrev FLG_MODGLOBS : Nat := 153
/-- `src/flags.def:1492`. -/ abbrev FLG_MODGLOBSUNSPEC : Nat := 154
/-- `src/flags.def:1502`. -/ abbrev FLG_MODSTRICTGLOBSUNSPEC : Nat := 155
/-- `src/flags.def:1512`. -/ abbrev FLG_MODGLOBSUNCHECKED : Nat := 156
/-- `src/flags.def:1532`. -/ abbrev FLG_NORETURN : Nat := 157
/-- `src/flags.def:1543`. -/ abbrev FLG_EMPTYRETURN : Nat := 158
/-- `src/flags.def:1551`. -/ abbrev FLG_ALWAYSEXITS : Nat := 159
/-- `src/flags.def:1560`. -/ abbrev FLG_LOOPEXEC : Nat := 160
/-- `src/flags.def:1567`. -/ abbrev FLG_FORLOOPEXEC : Nat := 161
/-- `src/flags.def:1574`. -/ abbrev FLG_WHILELOOPEXEC : Nat := 162
/-- `src/flags.def:1581`. -/ abbrev FLG_ITERLOOPEXEC : Nat := 163
/-- `src/flags.def:1588`. -/ abbrev FLG_OBVIOUSLOOPEXEC : Nat := 164
/-- `src/flags.def:1598`. -/ abbrev FLG_EVALORDER : Nat := 165
/-- `src/flags.def:1612`. -/ abbrev FLG_EVALORDERUNCON : Nat := 166
/-- `src/flags.def:1628`. -/ abbrev FLG_INFLOOPS : Nat := 167
/-- `src/flags.def:1639`. -/ abbrev FLG_INFLOOPSUNCON : Nat := 168
/-- `src/flags.def:1654`. -/ abbrev FLG_CASEBREAK : Nat := 169
/-- `src/flags.def:1661`. -/ abbrev FLG_MISSCASE : Nat := 170
/-- `src/flags.def:1669`. -/ abbrev FLG_FIRSTCASE : Nat := 171
/-- `src/flags.def:1677`. -/ abbrev FLG_DUPLICATECASES : Nat := 172
/-- `src/flags.def:1688`. -/ abbrev FLG_DEEPBREAK : Nat := 173
/-- `src/flags.def:1698`. -/ abbrev FLG_LOOPLOOPBREAK : Nat := 174
/-- `src/flags.def:1710`. -/ abbrev FLG_SWITCHLOOPBREAK : Nat := 175
/-- `src/flags.def:1722`. -/ abbrev FLG_LOOPSWITCHBREAK : Nat := 176
/-- `src/flags.def:1734`. -/ abbrev FLG_SWITCHSWITCHBREAK : Nat := 177
/-- `src/flags.def:1746`. -/ abbrev FLG_LOOPLOOPCONTINUE : Nat := 178
/-- `src/flags.def:1761`. -/ abbrev FLG_WHILEEMPTY : Nat := 179
/-- `src/flags.def:1769`. -/ abbrev FLG_WHILEBLOCK : Nat := 180
/-- `src/flags.def:1777`. -/ abbrev FLG_FOREMPTY : Nat := 181
/-- `src/flags.def:1785`. -/ abbrev FLG_FORBLOCK : Nat := 182
/-- `src/flags.def:1793`. -/ abbrev FLG_IFEMPTY : Nat := 183
/-- `src/flags.def:1801`. -/ abbrev FLG_IFBLOCK : Nat := 184
/-- `src/flags.def:1809`. -/ abbrev FLG_ALLEMPTY : Nat := 185
/-- `src/flags.def:1818`. -/ abbrev FLG_ALLBLOCK : Nat := 186
/-- `src/flags.def:1830`. -/ abbrev FLG_ELSEIFCOMPLETE : Nat := 187
/-- `src/flags.def:1841`. -/ abbrev FLG_UNREACHABLE : Nat := 188
/-- `src/flags.def:1852`. -/ abbrev FLG_NOEFFECT : Nat := 189
/-- `src/flags.def:1860`. -/ abbrev FLG_NOEFFECTUNCON : Nat := 190
/-- `src/flags.def:1873`. -/ abbrev FLG_RETVAL : Nat := 191
/-- `src/flags.def:1882`. -/ abbrev FLG_RETVALOTHER : Nat := 192
/-- `src/flags.def:1891`. -/ abbrev FLG_RETVALBOOL : Nat := 193
/-- `src/flags.def:1900`. -/ abbrev FLG_RETVALINT : Nat := 194
/-- `src/flags.def:1914`. -/ abbrev FLG_NULLTERMINATED : Nat := 195
/-- `src/flags.def:1922`. -/ abbrev FLG_BOUNDS : Nat := 196
/-- `src/flags.def:1929`. -/ abbrev FLG_LIKELYBOUNDS : Nat := 197
/-- `src/flags.def:1936`. -/ abbrev FLG_LIKELYBOUNDSREAD : Nat := 198
/-- `src/flags.def:1944`. -/ abbrev FLG_LIKELYBOUNDSWRITE : Nat := 199
/-- `src/flags.def:1953`. -/ abbrev FLG_BOUNDSREAD : Nat := 200
/-- `src/flags.def:1961`. -/ abbrev FLG_BOUNDSWRITE : Nat := 201
/-- `src/flags.def:1970`. -/ abbrev FLG_FUNCTIONPOST : Nat := 202
/-- `src/flags.def:1978`. -/ abbrev FLG_REDUNDANTCONSTRAINTS : Nat := 203
/-- `src/flags.def:1987`. -/ abbrev FLG_CHECKPOST : Nat := 204
/-- `src/flags.def:1996`. -/ abbrev FLG_IMPBOUNDSCONSTRAINTS : Nat := 205
/-- `src/flags.def:2005`. -/ abbrev FLG_ORCONSTRAINT : Nat := 206
/-- `src/flags.def:2013`. -/ abbrev FLG_PARENCONSTRAINT : Nat := 207
/-- `src/flags.def:2022`. -/ abbrev FLG_BOUNDSCOMPACTERRORMESSAGES : Nat := 208
/-- `src/flags.def:2030`. -/ abbrev FLG_CONSTRAINTLOCATION : Nat := 209
/-- `src/flags.def:2039`. -/ abbrev FLG_ALLOCMISMATCH : Nat := 210
/-- `src/flags.def:2051`. -/ abbrev FLG_MTSFILE : Nat := 211
/-- `src/flags.def:2058`. -/ abbrev FLG_STATETRANSFER : Nat := 212
/-- `src/flags.def:2066`. -/ abbrev FLG_STATEMERGE : Nat := 213
/-- `src/flags.def:2079`. -/ abbrev FLG_MACROREDEF : Nat := 214
/-- `src/flags.def:2086`. -/ abbrev FLG_MACROUNDEF : Nat := 215
/-- `src/flags.def:2098`. -/ abbrev FLG_MACROCONSTDECL : Nat := 216
/-- `src/flags.def:2108`. -/ abbrev FLG_MACROCONSTDIST : Nat := 217
/-- `src/flags.def:2119`. -/ abbrev FLG_MACROSTMT : Nat := 218
/-- `src/flags.def:2129`. -/ abbrev FLG_MACROEMPTY : Nat := 219
/-- `src/flags.def:2137`. -/ abbrev FLG_MACROPARAMS : Nat := 220
/-- `src/flags.def:2150`. -/ abbrev FLG_MACRORETURN : Nat := 221
/-- `src/flags.def:2160`. -/ abbrev FLG_MACROASSIGN : Nat := 222
/-- `src/flags.def:2170`. -/ abbrev FLG_MACROPARENS : Nat := 223
/-- `src/flags.def:2180`. -/ abbrev FLG_MACRODECL : Nat := 224
/-- `src/flags.def:2189`. -/ abbrev FLG_MACROFCNDECL : Nat := 225
/-- `src/flags.def:2200`. -/ abbrev FLG_SEFPARAMS : Nat := 226
/-- `src/flags.def:2208`. -/ abbrev FLG_SEFUNSPEC : Nat := 227
/-- `src/flags.def:2220`. -/ abbrev FLG_CONSTMACROS : Nat := 228
/-- `src/flags.def:2229`. -/ abbrev FLG_FCNMACROS : Nat := 229
/-- `src/flags.def:2238`. -/ abbrev FLG_ALLMACROS : Nat := 230
/-- `src/flags.def:2247`. -/ abbrev FLG_LIBMACROS : Nat := 231
/-- `src/flags.def:2255`. -/ abbrev FLG_SPECMACROS : Nat := 232
/-- `src/flags.def:2263`. -/ abbrev FLG_MACROMATCHNAME : Nat := 233
/-- `src/flags.def:2272`. -/ abbrev FLG_MACRONEXTLINE : Nat := 234
/-- `src/flags.def:2283`. -/ abbrev FLG_ITERBALANCE : Nat := 235
/-- `src/flags.def:2291`. -/ abbrev FLG_ITERYIELD : Nat := 236
/-- `src/flags.def:2299`. -/ abbrev FLG_HASYIELD : Nat := 237
/-- `src/flags.def:2317`. -/ abbrev FLG_NAMECHECKS : Nat := 238
/-- `src/flags.def:2327`. -/ abbrev FLG_CZECH : Nat := 239
/-- `src/flags.def:2335`. -/ abbrev FLG_CZECHFUNCTIONS : Nat := 240
/-- `src/flags.def:2342`. -/ abbrev FLG_CZECHVARS : Nat := 241
/-- `src/flags.def:2349`. -/ abbrev FLG_CZECHMACROS : Nat := 242
/-- `src/flags.def:2356`. -/ abbrev FLG_CZECHCONSTANTS : Nat := 243
/-- `src/flags.def:2363`. -/ abbrev FLG_CZECHTYPES : Nat := 244
/-- `src/flags.def:2374`. -/ abbrev FLG_SLOVAK : Nat := 245
/-- `src/flags.def:2381`. -/ abbrev FLG_SLOVAKFUNCTIONS : Nat := 246
/-- `src/flags.def:2388`. -/ abbrev FLG_SLOVAKMACROS : Nat := 247
/-- `src/flags.def:2395`. -/ abbrev FLG_SLOVAKVARS : Nat := 248
/-- `src/flags.def:2402`. -/ abbrev FLG_SLOVAKCONSTANTS : Nat := 249
/-- `src/flags.def:2409`. -/ abbrev FLG_SLOVAKTYPES : Nat := 250
/-- `src/flags.def:2419`. -/ abbrev FLG_CZECHOSLOVAK : Nat := 251
/-- `src/flags.def:2426`. -/ abbrev FLG_CZECHOSLOVAKFUNCTIONS : Nat := 252
/-- `src/flags.def:2433`. -/ abbrev FLG_CZECHOSLOVAKMACROS : Nat := 253
/-- `src/flags.def:2440`. -/ abbrev FLG_CZECHOSLOVAKVARS : Nat := 254
/-- `src/flags.def:2447`. -/ abbrev FLG_CZECHOSLOVAKCONSTANTS : Nat := 255
/-- `src/flags.def:2454`. -/ abbrev FLG_CZECHOSLOVAKTYPES : Nat := 256
/-- `src/flags.def:2465`. -/ abbrev FLG_MACROVARPREFIX : Nat := 257
/-- `src/flags.def:2473`. -/ abbrev FLG_MACROVARPREFIXEXCLUDE : Nat := 258
/-- `src/flags.def:2481`. -/ abbrev FLG_TAGPREFIX : Nat := 259
/-- `src/flags.def:2489`. -/ abbrev FLG_TAGPREFIXEXCLUDE : Nat := 260
/-- `src/flags.def:2497`. -/ abbrev FLG_ENUMPREFIX : Nat := 261
/-- `src/flags.def:2505`. -/ abbrev FLG_ENUMPREFIXEXCLUDE : Nat := 262
/-- `src/flags.def:2513`. -/ abbrev FLG_FILESTATICPREFIX : Nat := 263
/-- `src/flags.def:2521`. -/ abbrev FLG_FILESTATICPREFIXEXCLUDE : Nat := 264
/-- `src/flags.def:2529`. -/ abbrev FLG_GLOBPREFIX : Nat := 265
/-- `src/flags.def:2537`. -/ abbrev FLG_GLOBPREFIXEXCLUDE : Nat := 266
/-- `src/flags.def:2545`. -/ abbrev FLG_TYPEPREFIX : Nat := 267
/-- `src/flags.def:2553`. -/ abbrev FLG_TYPEPREFIXEXCLUDE : Nat := 268
/-- `src/flags.def:2561`. -/ abbrev FLG_EXTERNALPREFIX : Nat := 269
/-- `src/flags.def:2569`. -/ abbrev FLG_EXTERNALPREFIXEXCLUDE : Nat := 270
/-- `src/flags.def:2577`. -/ abbrev FLG_LOCALPREFIX : Nat := 271
/-- `src/flags.def:2585`. -/ abbrev FLG_LOCALPREFIXEXCLUDE : Nat := 272
/-- `src/flags.def:2593`. -/ abbrev FLG_UNCHECKEDMACROPREFIX : Nat := 273
/-- `src/flags.def:2601`. -/ abbrev FLG_UNCHECKEDMACROPREFIXEXCLUDE : Nat := 274
/-- `src/flags.def:2611`. -/ abbrev FLG_CONSTPREFIX : Nat := 275
/-- `src/flags.def:2619`. -/ abbrev FLG_CONSTPREFIXEXCLUDE : Nat := 276
/-- `src/flags.def:2627`. -/ abbrev FLG_ITERPREFIX : Nat := 277
/-- `src/flags.def:2635`. -/ abbrev FLG_ITERPREFIXEXCLUDE : Nat := 278
/-- `src/flags.def:2643`. -/ abbrev FLG_DECLPARAMPREFIX : Nat := 279
/-- `src/flags.def:2654`. -/ abbrev FLG_ISORESERVED : Nat := 280
/-- `src/flags.def:2662`. -/ abbrev FLG_CPPNAMES : Nat := 281
/-- `src/flags.def:2672`. -/ abbrev FLG_ISORESERVEDLOCAL : Nat := 282
/-- `src/flags.def:2680`. -/ abbrev FLG_DISTINCTEXTERNALNAMES : Nat := 283
/-- `src/flags.def:2696`. -/ abbrev FLG_EXTERNALNAMELEN : Nat := 284
/-- `src/flags.def:2706`. -/ abbrev FLG_EXTERNALNAMECASEINSENSITIVE : Nat := 285
/-- `src/flags.def:2717`. -/ abbrev FLG_DISTINCTINTERNALNAMES : Nat := 286
/-- `src/flags.def:2734`. -/ abbrev FLG_INTERNALNAMELEN : Nat := 287
/-- `src/flags.def:2743`. -/ abbrev FLG_INTERNALNAMECASEINSENSITIVE : Nat := 288
/-- `src/flags.def:2756`. -/ abbrev FLG_INTERNALNAMELOOKALIKE : Nat := 289
/-- `src/flags.def:2765`. -/ abbrev FLG_DECLPARAMNAME : Nat := 290
/-- `src/flags.def:2774`. -/ abbrev FLG_DECLPARAMMATCH : Nat := 291
/-- `src/flags.def:2785`. -/ abbrev FLG_DECLPARAMPREFIXEXCLUDE : Nat := 292
/-- `src/flags.def:2801`. -/ abbrev FLG_TOPUNUSED : Nat := 293
/-- `src/flags.def:2808`. -/ abbrev FLG_EXPORTLOCAL : Nat := 294
/-- `src/flags.def:2817`. -/ abbrev FLG_EXPORTHEADER : Nat := 295
/-- `src/flags.def:2825`. -/ abbrev FLG_EXPORTHEADERVAR : Nat := 296
/-- `src/flags.def:2834`. -/ abbrev FLG_FIELDUNUSED : Nat := 297
/-- `src/flags.def:2842`. -/ abbrev FLG_ENUMMEMUNUSED : Nat := 298
/-- `src/flags.def:2850`. -/ abbrev FLG_CONSTUNUSED : Nat := 299
/-- `src/flags.def:2858`. -/ abbrev FLG_FUNCUNUSED : Nat := 300
/-- `src/flags.def:2866`. -/ abbrev FLG_PARAMUNUSED : Nat := 301
/-- `src/flags.def:2874`. -/ abbrev FLG_TYPEUNUSED : Nat := 302
/-- `src/flags.def:2882`. -/ abbrev FLG_VARUNUSED : Nat := 303
/-- `src/flags.def:2891`. -/ abbrev FLG_UNUSEDSPECIAL : Nat := 304
/-- `src/flags.def:2901`. -/ abbrev FLG_DECLUNDEF : Nat := 305
/-- `src/flags.def:2909`. -/ abbrev FLG_SPECUNDEF : Nat := 306
/-- `src/flags.def:2917`. -/ abbrev FLG_SPECUNDECL : Nat := 307
/-- `src/flags.def:2926`. -/ abbrev FLG_NEWDECL : Nat := 308
/-- `src/flags.def:2936`. -/ abbrev FLG_NEEDSPEC : Nat := 309
/-- `src/flags.def:2955`. -/ abbrev FLG_NOLIB : Nat := 310
/-- `src/flags.def:2962`. -/ abbrev FLG_ANSILIB : Nat := 311
/-- `src/flags.def:2970`. -/ abbrev FLG_STRICTLIB : Nat := 312
/-- `src/flags.def:2979`. -/ abbrev FLG_UNIXLIB : Nat := 313
/-- `src/flags.def:2987`. -/ abbrev FLG_UNIXSTRICTLIB : Nat := 314
/-- `src/flags.def:2995`. -/ abbrev FLG_POSIXLIB : Nat := 315
/-- `src/flags.def:3003`. -/ abbrev FLG_POSIXSTRICTLIB : Nat := 316
/-- `src/flags.def:3011`. -/ abbrev FLG_WHICHLIB : Nat := 317
/-- `src/flags.def:3018`. -/ abbrev FLG_WARNPOSIX : Nat := 318
/-- `src/flags.def:3026`. -/ abbrev FLG_WARNUNIXLIB : Nat := 319
/-- `src/flags.def:3034`. -/ abbrev FLG_USEVARARGS : Nat := 320
/-- `src/flags.def:3043`. -/ abbrev FLG_CASEINSENSITIVEFILENAMES : Nat := 321
/-- `src/flags.def:3053`. -/ abbrev FLG_DUMP : Nat := 322
/-- `src/flags.def:3060`. -/ abbrev FLG_MERGE : Nat := 323
/-- `src/flags.def:3070`. -/ abbrev FLG_SINGLEINCLUDE : Nat := 324
/-- `src/flags.def:3082`. -/ abbrev FLG_NEVERINCLUDE : Nat := 325
/-- `src/flags.def:3091`. -/ abbrev FLG_SKIPSYSHEADERS : Nat := 326
/-- `src/flags.def:3109`. -/ abbrev FLG_GNUEXTENSIONS : Nat := 327
/-- `src/flags.def:3120`. -/ abbrev FLG_NOPARAMS : Nat := 328
/-- `src/flags.def:3128`. -/ abbrev FLG_OLDSTYLE : Nat := 329
/-- `src/flags.def:3143`. -/ abbrev FLG_MAINTYPE : Nat := 330
/-- `src/flags.def:3151`. -/ abbrev FLG_EXITARG : Nat := 331
/-- `src/flags.def:3160`. -/ abbrev FLG_SHADOW : Nat := 332
/-- `src/flags.def:3168`. -/ abbrev FLG_INCONDEFSLIB : Nat := 333
/-- `src/flags.def:3177`. -/ abbrev FLG_WARNOVERLOAD : Nat := 334
/-- `src/flags.def:3186`. -/ abbrev FLG_NESTEDEXTERN : Nat := 335
/-- `src/flags.def:3194`. -/ abbrev FLG_REDECL : Nat := 336
/-- `src/flags.def:3203`. -/ abbrev FLG_REDEF : Nat := 337
/-- `src/flags.def:3211`. -/ abbrev FLG_IMPTYPE : Nat := 338
/-- `src/flags.def:3220`. -/ abbrev FLG_TMPDIR : Nat := 339
/-- `src/flags.def:3227`. -/ abbrev FLG_LARCHPATH : Nat := 340
/-- `src/flags.def:3234`. -/ abbrev FLG_LCLIMPORTDIR : Nat := 341
/-- `src/flags.def:3241`. -/ abbrev FLG_SYSTEMDIRS : Nat := 342
/-- `src/flags.def:3252`. -/ abbrev FLG_SKIPISOHEADERS : Nat := 343
/-- `src/flags.def:3265`. -/ abbrev FLG_SKIPPOSIXHEADERS : Nat := 344
/-- `src/flags.def:3276`. -/ abbrev FLG_SYSTEMDIRERRORS : Nat := 345
/-- `src/flags.def:3283`. -/ abbrev FLG_SYSTEMDIREXPAND : Nat := 346
/-- `src/flags.def:3292`. -/ abbrev FLG_INCLUDEPATH : Nat := 347
/-- `src/flags.def:3299`. -/ abbrev FLG_SPECPATH : Nat := 348
/-- `src/flags.def:3306`. -/ abbrev FLG_EXPORTANY : Nat := 349
/-- `src/flags.def:3314`. -/ abbrev FLG_EXPORTFCN : Nat := 350
/-- `src/flags.def:3321`. -/ abbrev FLG_EXPORTMACRO : Nat := 351
/-- `src/flags.def:3328`. -/ abbrev FLG_EXPORTTYPE : Nat := 352
/-- `src/flags.def:3335`. -/ abbrev FLG_EXPORTVAR : Nat := 353
/-- `src/flags.def:3342`. -/ abbrev FLG_EXPORTCONST : Nat := 354
/-- `src/flags.def:3349`. -/ abbrev FLG_EXPORTITER : Nat := 355
/-- `src/flags.def:3357`. -/ abbrev FLG_LINELEN : Nat := 356
/-- `src/flags.def:3364`. -/ abbrev FLG_INDENTSPACES : Nat := 357
/-- `src/flags.def:3371`. -/ abbrev FLG_LOCINDENTSPACES : Nat := 358
/-- `src/flags.def:3378`. -/ abbrev FLG_SHOWDEEPHISTORY : Nat := 359
/-- `src/flags.def:3385`. -/ abbrev FLG_SHOWCOL : Nat := 360
/-- `src/flags.def:3392`. -/ abbrev FLG_SHOWLOADLOC : Nat := 361
/-- `src/flags.def:3399`. -/ abbrev FLG_CSV : Nat := 362
/-- `src/flags.def:3406`. -/ abbrev FLG_CSVOVERWRITE : Nat := 363
/-- `src/flags.def:3413`. -/ abbrev FLG_PARENFILEFORMAT : Nat := 364
/-- `src/flags.def:3420`. -/ abbrev FLG_HTMLFILEFORMAT : Nat := 365
/-- `src/flags.def:3427`. -/ abbrev FLG_SHOWFUNC : Nat := 366
/-- `src/flags.def:3434`. -/ abbrev FLG_SHOWALLCONJS : Nat := 367
/-- `src/flags.def:3443`. -/ abbrev FLG_IMPCONJ : Nat := 368
/-- `src/flags.def:3450`. -/ abbrev FLG_EXPECT : Nat := 369
/-- `src/flags.def:3457`. -/ abbrev FLG_LCLEXPECT : Nat := 370
/-- `src/flags.def:3464`. -/ abbrev FLG_PARTIAL : Nat := 371
/-- `src/flags.def:3477`. -/ abbrev FLG_DOLH : Nat := 372
/-- `src/flags.def:3484`. -/ abbrev FLG_DOLCS : Nat := 373
/-- `src/flags.def:3496`. -/ abbrev FLG_WARNFLAGS : Nat := 374
/-- `src/flags.def:3504`. -/ abbrev FLG_WARNRC : Nat := 375
/-- `src/flags.def:3512`. -/ abbrev FLG_BADFLAG : Nat := 376
/-- `src/flags.def:3520`. -/ abbrev FLG_FILEEXTENSIONS : Nat := 377
/-- `src/flags.def:3527`. -/ abbrev FLG_HELP : Nat := 378
/-- `src/flags.def:3535`. -/ abbrev FLG_OPTF : Nat := 379
/-- `src/flags.def:3543`. -/ abbrev FLG_INIT : Nat := 380
/-- `src/flags.def:3550`. -/ abbrev FLG_NOF : Nat := 381
/-- `src/flags.def:3558`. -/ abbrev FLG_COMMENTCHAR : Nat := 382
/-- `src/flags.def:3573`. -/ abbrev FLG_CONTROLNESTDEPTH : Nat := 383
/-- `src/flags.def:3582`. -/ abbrev FLG_STRINGLITERALLEN : Nat := 384
/-- `src/flags.def:3590`. -/ abbrev FLG_NUMSTRUCTFIELDS : Nat := 385
/-- `src/flags.def:3598`. -/ abbrev FLG_NUMENUMMEMBERS : Nat := 386
/-- `src/flags.def:3606`. -/ abbrev FLG_INCLUDENEST : Nat := 387
/-- `src/flags.def:3614`. -/ abbrev FLG_ANSI89LIMITS : Nat := 388
/-- `src/flags.def:3623`. -/ abbrev FLG_ISO99LIMITS : Nat := 389
/-- `src/flags.def:3633`. -/ abbrev FLG_DEFINE : Nat := 390
/-- `src/flags.def:3640`. -/ abbrev FLG_UNDEFINE : Nat := 391
/-- `src/flags.def:3647`. -/ abbrev FLG_UNRECOGDIRECTIVE : Nat := 392
/-- `src/flags.def:3655`. -/ abbrev FLG_SUPCOUNTS : Nat := 393
/-- `src/flags.def:3662`. -/ abbrev FLG_LIMIT : Nat := 394
/-- `src/flags.def:3669`. -/ abbrev FLG_SYNTAX : Nat := 395
/-- `src/flags.def:3677`. -/ abbrev FLG_TRYTORECOVER : Nat := 396
/-- `src/flags.def:3684`. -/ abbrev FLG_PREPROC : Nat := 397
/-- `src/flags.def:3693`. -/ abbrev FLG_TYPE : Nat := 398
/-- `src/flags.def:3702`. -/ abbrev FLG_STRINGLITTOOLONG : Nat := 399
/-- `src/flags.def:3710`. -/ abbrev FLG_STRINGLITNOROOMFINALNULL : Nat := 400
/-- `src/flags.def:3718`. -/ abbrev FLG_STRINGLITNOROOM : Nat := 401
/-- `src/flags.def:3726`. -/ abbrev FLG_STRINGLITSMALLER : Nat := 402
/-- `src/flags.def:3734`. -/ abbrev FLG_ENUMMEMBERS : Nat := 403
/-- `src/flags.def:3743`. -/ abbrev FLG_FORMATTYPE : Nat := 404
/-- `src/flags.def:3751`. -/ abbrev FLG_FORMATCONST : Nat := 405
/-- `src/flags.def:3759`. -/ abbrev FLG_FORMATCODE : Nat := 406
/-- `src/flags.def:3767`. -/ abbrev FLG_FORWARDDECL : Nat := 407
/-- `src/flags.def:3774`. -/ abbrev FLG_ABSTVOIDP : Nat := 408
/-- `src/flags.def:3782`. -/ abbrev FLG_CASTFCNPTR : Nat := 409
/-- `src/flags.def:3790`. -/ abbrev FLG_CHARINDEX : Nat := 410
/-- `src/flags.def:3797`. -/ abbrev FLG_ENUMINDEX : Nat := 411
/-- `src/flags.def:3804`. -/ abbrev FLG_BOOLINT : Nat := 412
/-- `src/flags.def:3812`. -/ abbrev FLG_CHARINT : Nat := 413
/-- `src/flags.def:3820`. -/ abbrev FLG_ENUMINT : Nat := 414
/-- `src/flags.def:3828`. -/ abbrev FLG_LONGINT : Nat := 415
/-- `src/flags.def:3836`. -/ abbrev FLG_SHORTINT : Nat := 416
/-- `src/flags.def:3844`. -/ abbrev FLG_FLOATDOUBLE : Nat := 417
/-- `src/flags.def:3852`. -/ abbrev FLG_IGNOREQUALS : Nat := 418
/-- `src/flags.def:3860`. -/ abbrev FLG_DUPLICATEQUALS : Nat := 419
/-- `src/flags.def:3868`. -/ abbrev FLG_IGNORESIGNS : Nat := 420
/-- `src/flags.def:3876`. -/ abbrev FLG_NUMLITERAL : Nat := 421
/-- `src/flags.def:3885`. -/ abbrev FLG_CHARINTLITERAL : Nat := 422
/-- `src/flags.def:3895`. -/ abbrev FLG_RELAXQUALS : Nat := 423
/-- `src/flags.def:3902`. -/ abbrev FLG_RELAXTYPES : Nat := 424
/-- `src/flags.def:3909`. -/ abbrev FLG_CHARUNSIGNEDCHAR : Nat := 425
/-- `src/flags.def:3917`. -/ abbrev FLG_MATCHANYINTEGRAL : Nat := 426
/-- `src/flags.def:3925`. -/ abbrev FLG_LONGUNSIGNEDINTEGRAL : Nat := 427
/-- `src/flags.def:3933`. -/ abbrev FLG_LONGINTEGRAL : Nat := 428
/-- `src/flags.def:3941`. -/ abbrev FLG_LONGUNSIGNEDUNSIGNEDINTEGRAL : Nat := 429
/-- `src/flags.def:3950`. -/ abbrev FLG_LONGSIGNEDINTEGRAL : Nat := 430
/-- `src/flags.def:3958`. -/ abbrev FLG_ZEROPTR : Nat := 431
/-- `src/flags.def:3965`. -/ abbrev FLG_ZEROBOOL : Nat := 432
/-- `src/flags.def:3972`. -/ abbrev FLG_REPEATUNRECOG : Nat := 433
/-- `src/flags.def:3980`. -/ abbrev FLG_SYSTEMUNRECOG : Nat := 434
/-- `src/flags.def:3990`. -/ abbrev FLG_UNRECOG : Nat := 435
/-- `src/flags.def:3999`. -/ abbrev FLG_ANNOTATIONERROR : Nat := 436
/-- `src/flags.def:4007`. -/ abbrev FLG_COMMENTERROR : Nat := 437
/-- `src/flags.def:4020`. -/ abbrev FLG_WARNUSE : Nat := 438
/-- `src/flags.def:4028`. -/ abbrev FLG_BUFFEROVERFLOW : Nat := 439
/-- `src/flags.def:4036`. -/ abbrev FLG_BUFFEROVERFLOWHIGH : Nat := 440
/-- `src/flags.def:4044`. -/ abbrev FLG_IMPLEMENTATIONOPTIONAL : Nat := 441
/-- `src/flags.def:4052`. -/ abbrev FLG_LEGACY : Nat := 442
/-- `src/flags.def:4060`. -/ abbrev FLG_MULTITHREADED : Nat := 443
/-- `src/flags.def:4068`. -/ abbrev FLG_PORTABILITY : Nat := 444
/-- `src/flags.def:4076`. -/ abbrev FLG_SUPERUSER : Nat := 445
/-- `src/flags.def:4084`. -/ abbrev FLG_TOCTOU : Nat := 446
/-- `src/flags.def:4092`. -/ abbrev FLG_UNIXSTANDARD : Nat := 447
/-- `src/flags.def:4107`. -/ abbrev FLG_ITS4MOSTRISKY : Nat := 448
/-- `src/flags.def:4115`. -/ abbrev FLG_ITS4VERYRISKY : Nat := 449
/-- `src/flags.def:4123`. -/ abbrev FLG_ITS4RISKY : Nat := 450
/-- `src/flags.def:4131`. -/ abbrev FLG_ITS4MODERATERISK : Nat := 451
/-- `src/flags.def:4139`. -/ abbrev FLG_ITS4LOWRISK : Nat := 452
/-- `src/flags.def:4152`. -/ abbrev FLG_NOCOMMENTS : Nat := 453
/-- `src/flags.def:4159`. -/ abbrev FLG_NOACCESS : Nat := 454
/-- `src/flags.def:4167`. -/ abbrev FLG_UNRECOGCOMMENTS : Nat := 455
/-- `src/flags.def:4176`. -/ abbrev FLG_UNRECOGFLAGCOMMENTS : Nat := 456
/-- `src/flags.def:4184`. -/ abbrev FLG_TMPCOMMENTS : Nat := 457
/-- `src/flags.def:4191`. -/ abbrev FLG_LINTCOMMENTS : Nat := 458
/-- `src/flags.def:4198`. -/ abbrev FLG_WARNLINTCOMMENTS : Nat := 459
/-- `src/flags.def:4214`. -/ abbrev FLG_CONTINUECOMMENT : Nat := 460
/-- `src/flags.def:4224`. -/ abbrev FLG_SLASHSLASHCOMMENT : Nat := 461
/-- `src/flags.def:4232`. -/ abbrev FLG_NESTCOMMENT : Nat := 462
/-- `src/flags.def:4248`. -/ abbrev FLG_QUIET : Nat := 463
/-- `src/flags.def:4260`. -/ abbrev FLG_MESSAGESTREAMSTDOUT : Nat := 464
/-- `src/flags.def:4267`. -/ abbrev FLG_MESSAGESTREAMSTDERR : Nat := 465
/-- `src/flags.def:4274`. -/ abbrev FLG_MESSAGESTREAM : Nat := 466
/-- `src/flags.def:4282`. -/ abbrev FLG_WARNINGSTREAMSTDOUT : Nat := 467
/-- `src/flags.def:4289`. -/ abbrev FLG_WARNINGSTREAMSTDERR : Nat := 468
/-- `src/flags.def:4296`. -/ abbrev FLG_WARNINGSTREAM : Nat := 469
/-- `src/flags.def:4304`. -/ abbrev FLG_ERRORSTREAMSTDOUT : Nat := 470
/-- `src/flags.def:4311`. -/ abbrev FLG_ERRORSTREAMSTDERR : Nat := 471
/-- `src/flags.def:4318`. -/ abbrev FLG_ERRORSTREAM : Nat := 472
/-- `src/flags.def:4326`. -/ abbrev FLG_STREAMOVERWRITE : Nat := 473
/-- `src/flags.def:4335`. -/ abbrev FLG_SHOWSUMMARY : Nat := 474
/-- `src/flags.def:4342`. -/ abbrev FLG_SHOWSCAN : Nat := 475
/-- `src/flags.def:4349`. -/ abbrev FLG_WARNSYSFILES : Nat := 476
/-- `src/flags.def:4356`. -/ abbrev FLG_STATS : Nat := 477
/-- `src/flags.def:4363`. -/ abbrev FLG_TIMEDIST : Nat := 478
/-- `src/flags.def:4370`. -/ abbrev FLG_SHOWUSES : Nat := 479
/-- `src/flags.def:4380`. -/ abbrev FLG_HINTS : Nat := 480
/-- `src/flags.def:4388`. -/ abbrev FLG_FORCEHINTS : Nat := 481
/-- `src/flags.def:4401`. -/ abbrev FLG_BUGSLIMIT : Nat := 482
/-- `src/flags.def:4408`. -/ abbrev FLG_DEBUGFUNCTIONCONSTRAINT : Nat := 483
/-- `src/flags.def:4416`. -/ abbrev FLG_GRAMMAR : Nat := 484
/-- `src/flags.def:4423`. -/ abbrev FLG_KEEP : Nat := 485
/-- `src/flags.def:4430`. -/ abbrev FLG_NOPP : Nat := 486
/-- `src/flags.def:4437`. -/ abbrev FLG_SHOWSOURCELOC : Nat := 487

/-- `flags[]`, `src/flags.def`. -/
def table : List Row :=
  [⟨c!"null", false, true, false, false, false, .none⟩,
   ⟨c!"nullderef", false, false, false, false, true, .none⟩,
   ⟨c!"nullpass", false, false, false, false, true, .none⟩,
   ⟨c!"nullret", false, false, false, false, true, .none⟩,
   ⟨c!"nullstate", false, false, false, false, true, .none⟩,
   ⟨c!"nullassign", false, false, false, false, true, .none⟩,
   ⟨c!"nullinit", false, false, false, false, false, .none⟩,
   ⟨c!"usedef", false, false, false, false, true, .none⟩,
   ⟨c!"mustdefine", false, false, false, false, true, .none⟩,
   ⟨c!"uniondef", false, false, false, false, true, .none⟩,
   ⟨c!"compdef", false, false, false, false, true, .none⟩,
   ⟨c!"fullinitblock", false, false, false, false, false, .none⟩,
   ⟨c!"initallelements", false, false, false, false, false, .none⟩,
   ⟨c!"initsize", false, false, false, false, false, .none⟩,
   ⟨c!"impouts", false, false, false, false, true, .none⟩,
   ⟨c!"incondefs", false, false, false, false, true, .none⟩,
   ⟨c!"matchfields", false, false, false, false, true, .none⟩,
   ⟨c!"fcnderef", false, false, false, false, true, .none⟩,
   ⟨c!"realcompare", false, false, false, false, true, .none⟩,
   ⟨c!"realrelatecompare", false, false, false, false, true, .none⟩,
   ⟨c!"unsignedcompare", false, false, false, false, true, .none⟩,
   ⟨c!"ptrarith", false, false, false, false, true, .none⟩,
   ⟨c!"nullptrarith", false, false, false, false, true, .none⟩,
   ⟨c!"ptrcompare", false, false, false, false, true, .none⟩,
   ⟨c!"strictops", false, false, false, false, true, .none⟩,
   ⟨c!"bitwisesigned", false, false, false, false, true, .none⟩,
   ⟨c!"shiftnegative", false, false, false, false, true, .none⟩,
   ⟨c!"shiftimplementation", false, false, false, false, true, .none⟩,
   ⟨c!"sizeoftype", false, false, false, false, true, .none⟩,
   ⟨c!"sizeofformalarray", false, false, false, false, false, .none⟩,
   ⟨c!"fixedformalarray", false, false, false, false, false, .none⟩,
   ⟨c!"incompletetype", false, false, false, false, false, .none⟩,
   ⟨c!"formalarray", false, false, false, false, false, .none⟩,
   ⟨c!"booltype", false, false, false, false, false, .string⟩,
   ⟨c!"boolfalse", false, false, false, false, false, .string⟩,
   ⟨c!"booltrue", false, false, false, false, false, .string⟩,
   ⟨c!"likelybool", false, false, false, false, false, .none⟩,
   ⟨c!"boolcompare", false, false, false, false, true, .none⟩,
   ⟨c!"boolops", false, false, false, false, true, .none⟩,
   ⟨c!"ptrnegate", false, false, false, false, true, .none⟩,
   ⟨c!"predassign", false, false, false, false, false, .none⟩,
   ⟨c!"predbool", false, true, false, false, false, .none⟩,
   ⟨c!"predboolint", false, false, false, false, true, .none⟩,
   ⟨c!"predboolptr", false, false, false, false, true, .none⟩,
   ⟨c!"predboolothers", false, false, false, false, true, .none⟩,
   ⟨c!"abstract", false, false, false, false, false, .none⟩,
   ⟨c!"abstractcompare", false, false, false, false, true, .none⟩,
   ⟨c!"numabstract", false, false, false, false, false, .none⟩,
   ⟨c!"numabstractcast", false, false, false, false, true, .none⟩,
   ⟨c!"numabstractlit", false, false, false, false, true, .none⟩,
   ⟨c!"numabstractindex", false, false, false, false, true, .none⟩,
   ⟨c!"numabstractprint", false, false, false, false, true, .none⟩,
   ⟨c!"impabstract", false, false, false, false, false, .none⟩,
   ⟨c!"accessmodule", false, false, false, false, false, .none⟩,
   ⟨c!"accessfile", false, false, false, false, false, .none⟩,
   ⟨c!"accessczech", false, false, false, false, false, .none⟩,
   ⟨c!"accessslovak", false, false, false, false, false, .none⟩,
   ⟨c!"accessczechoslovak", false, false, false, false, false, .none⟩,
   ⟨c!"accessall", false, true, false, false, false, .none⟩,
   ⟨c!"mutrep", false, false, false, false, true, .none⟩,
   ⟨c!"mustfreefresh", false, false, false, false, true, .none⟩,
   ⟨c!"mustfreeonly", false, false, false, false, true, .none⟩,
   ⟨c!"mustfree", false, true, false, false, false, .none⟩,
   ⟨c!"usereleased", false, false, false, false, true, .none⟩,
   ⟨c!"strictusereleased", false, false, false, false, true, .none⟩,
   ⟨c!"compdestroy", false, false, false, false, true, .none⟩,
   ⟨c!"strictdestroy", false, false, false, false, true, .none⟩,
   ⟨c!"deparrays", false, false, false, false, true, .none⟩,
   ⟨c!"branchstate", false, false, false, false, true, .none⟩,
   ⟨c!"strictbranchstate", false, false, false, false, true, .none⟩,
   ⟨c!"memchecks", false, true, false, false, false, .none⟩,
   ⟨c!"compmempass", false, false, false, false, true, .none⟩,
   ⟨c!"stackref", false, false, false, false, true, .none⟩,
   ⟨c!"memtrans", false, true, false, false, false, .none⟩,
   ⟨c!"dependenttrans", false, false, false, false, true, .none⟩,
   ⟨c!"newreftrans", false, false, false, false, true, .none⟩,
   ⟨c!"onlytrans", false, false, false, false, true, .none⟩,
   ⟨c!"onlyunqglobaltrans", false, false, false, false, true, .none⟩,
   ⟨c!"ownedtrans", false, false, false, false, true, .none⟩,
   ⟨c!"freshtrans", false, false, false, false, true, .none⟩,
   ⟨c!"sharedtrans", false, false, false, false, true, .none⟩,
   ⟨c!"temptrans", false, false, false, false, true, .none⟩,
   ⟨c!"kepttrans", false, false, false, false, true, .none⟩,
   ⟨c!"keeptrans", false, false, false, false, true, .none⟩,
   ⟨c!"immediatetrans", false, false, false, false, true, .none⟩,
   ⟨c!"refcounttrans", false, false, false, false, true, .none⟩,
   ⟨c!"statictrans", false, false, false, false, true, .none⟩,
   ⟨c!"unqualifiedtrans", false, false, false, false, true, .none⟩,
   ⟨c!"staticinittrans", false, false, false, false, true, .none⟩,
   ⟨c!"unqualifiedinittrans", false, false, false, false, true, .none⟩,
   ⟨c!"readonlytrans", false, false, false, false, true, .none⟩,
   ⟨c!"passunknown", false, false, false, false, true, .none⟩,
   ⟨c!"readonlystrings", false, false, false, false, true, .none⟩,
   ⟨c!"memimp", false, false, false, false, true, .none⟩,
   ⟨c!"paramimptemp", false, false, false, false, false, .none⟩,
   ⟨c!"allimponly", false, true, false, false, false, .none⟩,
   ⟨c!"codeimponly", false, true, false, false, false, .none⟩,
   ⟨c!"specimponly", false, true, false, false, false, .none⟩,
   ⟨c!"globimponly", false, false, false, false, false, .none⟩,
   ⟨c!"retimponly", false, false, false, false, false, .none⟩,
   ⟨c!"structimponly", false, false, false, false, false, .none⟩,
   ⟨c!"specglobimponly", false, false, false, false, false, .none⟩,
   ⟨c!"specretimponly", false, false, false, false, false, .none⟩,
   ⟨c!"specstructimponly", false, false, false, false, false, .none⟩,
   ⟨c!"aliasunique", false, false, false, false, true, .none⟩,
   ⟨c!"mayaliasunique", false, false, false, false, true, .none⟩,
   ⟨c!"mustnotalias", false, false, false, false, true, .none⟩,
   ⟨c!"retalias", false, false, false, false, true, .none⟩,
   ⟨c!"globalias", false, true, false, false, false, .none⟩,
   ⟨c!"checkstrictglobalias", false, false, false, false, true, .none⟩,
   ⟨c!"checkedglobalias", false, false, false, false, true, .none⟩,
   ⟨c!"checkmodglobalias", false, false, false, false, true, .none⟩,
   ⟨c!"uncheckedglobalias", false, false, false, false, true, .none⟩,
   ⟨c!"exposetrans", false, false, false, false, true, .none⟩,
   ⟨c!"observertrans", false, false, false, false, true, .none⟩,
   ⟨c!"repexpose", false, true, false, false, false, .none⟩,
   ⟨c!"retexpose", false, false, false, false, true, .none⟩,
   ⟨c!"assignexpose", false, false, false, false, true, .none⟩,
   ⟨c!"castexpose", false, false, false, false, true, .none⟩,
   ⟨c!"redundantsharequal", false, false, false, false, true, .none⟩,
   ⟨c!"misplacedsharequal", false, false, false, false, true, .none⟩,
   ⟨c!"mods", false, false, false, false, false, .none⟩,
   ⟨c!"mustmod", false, false, false, false, true, .none⟩,
   ⟨c!"modobserver", false, false, false, false, false, .none⟩,
   ⟨c!"modobserveruncon", false, false, false, false, true, .none⟩,
   ⟨c!"modinternalstrict", false, false, false, false, true, .none⟩,
   ⟨c!"modfilesys", false, false, false, false, true, .none⟩,
   ⟨c!"modunspec", false, true, false, false, false, .none⟩,
   ⟨c!"modnomods", false, false, false, false, true, .none⟩,
   ⟨c!"moduncon", false, false, false, false, true, .none⟩,
   ⟨c!"modunconnomods", false, false, false, false, true, .none⟩,
   ⟨c!"globsimpmodsnothing", false, false, false, false, true, .none⟩,
   ⟨c!"modsimpnoglobs", false, false, false, false, true, .none⟩,
   ⟨c!"globstate", false, false, false, false, true, .none⟩,
   ⟨c!"globs", false, false, false, false, false, .none⟩,
   ⟨c!"globuse", false, false, false, false, true, .none⟩,
   ⟨c!"internalglobs", false, false, false, false, true, .none⟩,
   ⟨c!"internalglobsnoglobs", false, false, false, false, true, .none⟩,
   ⟨c!"warnmissingglobs", false, false, false, false, true, .none⟩,
   ⟨c!"warnmissingglobsnoglobs", false, false, false, false, true, .none⟩,
   ⟨c!"globnoglobs", false, false, false, false, true, .none⟩,
   ⟨c!"allglobs", false, false, false, false, true, .none⟩,
   ⟨c!"checkstrictglobs", false, false, false, false, true, .none⟩,
   ⟨c!"impcheckedspecglobs", false, false, false, false, true, .none⟩,
   ⟨c!"impcheckmodspecglobs", false, false, false, false, true, .none⟩,
   ⟨c!"impcheckedstrictspecglobs", false, false, false, false, true, .none⟩,
   ⟨c!"impcheckedglobs", false, false, false, false, true, .none⟩,
   ⟨c!"impcheckmodglobs", false, false, false, false, true, .none⟩,
   ⟨c!"impcheckedstrictglobs", false, false, false, false, true, .none⟩,
   ⟨c!"impcheckedstatics", false, false, false, false, true, .none⟩,
   ⟨c!"impcheckmodstatics", false, false, false, false, true, .none⟩,
   ⟨c!"impcheckmodinternals", false, false, false, false, true, .none⟩,
   ⟨c!"impcheckedstrictstatics", false, false, false, false, true, .none⟩,
   ⟨c!"modglobs", false, false, false, false, true, .none⟩,
   ⟨c!"modglobsnomods", false, false, false, false, true, .none⟩,
   ⟨c!"modstrictglobsnomods", false, false, false, false, true, .none⟩,
   ⟨c!"modglobsunchecked", false, false, false, false, true, .none⟩,
   ⟨c!"noret", false, false, false, false, true, .none⟩,
   ⟨c!"emptyret", false, false, false, false, false, .none⟩,
   ⟨c!"alwaysexits", false, false, false, false, false, .none⟩,
   ⟨c!"loopexec", false, true, false, false, false, .none⟩,
   ⟨c!"forloopexec", false, false, false, false, false, .none⟩,
   ⟨c!"whileloopexec", false, false, false, false, false, .none⟩,
   ⟨c!"iterloopexec", false, false, false, false, false, .none⟩,
   ⟨c!"obviousloopexec", false, false, false, false, false, .none⟩,
   ⟨c!"evalorder", false, false, false, false, true, .none⟩,
   ⟨c!"evalorderuncon", false, false, false, false, true, .none⟩,
   ⟨c!"infloops", false, false, false, false, true, .none⟩,
   ⟨c!"infloopsuncon", false, false, false, false, true, .none⟩,
   ⟨c!"casebreak", false, false, false, false, true, .none⟩,
   ⟨c!"misscase", false, false, false, false, true, .none⟩,
   ⟨c!"firstcase", false, false, false, false, true, .none⟩,
   ⟨c!"duplicatecases", false, false, false, false, false, .none⟩,
   ⟨c!"deepbreak", false, true, false, false, false, .none⟩,
   ⟨c!"looploopbreak", false, false, false, false, true, .none⟩,
   ⟨c!"switchloopbreak", false, false, false, false, true, .none⟩,
   ⟨c!"loopswitchbreak", false, false, false, false, true, .none⟩,
   ⟨c!"switchswitchbreak", false, false, false, false, true, .none⟩,
   ⟨c!"looploopcontinue", false, false, false, false, true, .none⟩,
   ⟨c!"whileempty", false, false, false, false, true, .none⟩,
   ⟨c!"whileblock", false, false, false, false, true, .none⟩,
   ⟨c!"forempty", false, false, false, false, true, .none⟩,
   ⟨c!"forblock", false, false, false, false, true, .none⟩,
   ⟨c!"ifempty", false, false, false, false, true, .none⟩,
   ⟨c!"ifblock", false, false, false, false, true, .none⟩,
   ⟨c!"allempty", false, true, false, false, false, .none⟩,
   ⟨c!"allblock", false, true, false, false, false, .none⟩,
   ⟨c!"elseifcomplete", false, false, false, false, true, .none⟩,
   ⟨c!"unreachable", false, false, false, false, true, .none⟩,
   ⟨c!"noeffect", false, false, false, false, true, .none⟩,
   ⟨c!"noeffectuncon", false, false, false, false, true, .none⟩,
   ⟨c!"retval", false, true, false, false, false, .none⟩,
   ⟨c!"retvalother", false, false, false, false, true, .none⟩,
   ⟨c!"retvalbool", false, false, false, false, true, .none⟩,
   ⟨c!"retvalint", false, false, false, false, true, .none⟩,
   ⟨c!"nullterminated", false, false, false, false, true, .none⟩,
   ⟨c!"bounds", false, true, false, false, false, .none⟩,
   ⟨c!"likelybounds", false, true, false, false, false, .none⟩,
   ⟨c!"likelyboundsread", false, false, false, false, true, .none⟩,
   ⟨c!"likelyboundswrite", false, false, false, false, true, .none⟩,
   ⟨c!"boundsread", false, false, false, false, true, .none⟩,
   ⟨c!"boundswrite", false, false, false, false, true, .none⟩,
   ⟨c!"fcnpost", false, false, false, false, false, .none⟩,
   ⟨c!"redundantconstraints", false, false, false, false, false, .none⟩,
   ⟨c!"checkpost", false, false, false, false, true, .none⟩,
   ⟨c!"impboundsconstraints", false, false, false, false, false, .none⟩,
   ⟨c!"orconstraint", false, false, false, false, false, .none⟩,
   ⟨c!"showconstraintparens", false, false, false, false, false, .none⟩,
   ⟨c!"boundscompacterrormessages", false, false, false, false, false, .none⟩,
   ⟨c!"showconstraintlocation", false, false, false, false, false, .none⟩,
   ⟨c!"allocmismatch", false, false, false, false, true, .none⟩,
   ⟨c!"mts", false, false, false, true, false, .file⟩,
   ⟨c!"statetransfer", false, false, false, false, true, .none⟩,
   ⟨c!"statemerge", false, false, false, false, true, .none⟩,
   ⟨c!"macroredef", false, false, false, false, true, .none⟩,
   ⟨c!"macrounrecog", false, false, false, false, true, .none⟩,
   ⟨c!"macroconstdecl", false, false, false, false, true, .none⟩,
   ⟨c!"macroconstdistance", false, false, false, false, false, .none⟩,
   ⟨c!"macrostmt", false, false, false, false, true, .none⟩,
   ⟨c!"macroempty", false, false, false, false, true, .none⟩,
   ⟨c!"macroparams", false, false, false, false, true, .none⟩,
   ⟨c!"macroret", false, false, false, false, true, .none⟩,
   ⟨c!"macroassign", false, false, false, false, true, .none⟩,
   ⟨c!"macroparens", false, false, false, false, true, .none⟩,
   ⟨c!"macrodecl", false, false, false, false, true, .none⟩,
   ⟨c!"macrofcndecl", false, false, false, false, true, .none⟩,
   ⟨c!"sefparams", false, false, false, false, true, .none⟩,
   ⟨c!"sefuncon", false, false, false, false, true, .none⟩,
   ⟨c!"constmacros", false, false, false, false, false, .none⟩,
   ⟨c!"fcnmacros", false, false, false, false, false, .none⟩,
   ⟨c!"allmacros", false, true, false, false, false, .none⟩,
   ⟨c!"libmacros", false, false, false, false, false, .none⟩,
   ⟨c!"specmacros", false, false, false, false, false, .none⟩,
   ⟨c!"macromatchname", false, false, false, false, true, .none⟩,
   ⟨c!"nextlinemacros", false, false, false, false, false, .none⟩,
   ⟨c!"iterbalance", false, false, false, false, false, .none⟩,
   ⟨c!"iteryield", false, false, false, false, false, .none⟩,
   ⟨c!"hasyield", false, false, false, false, false, .none⟩,
   ⟨c!"namechecks", true, false, false, false, false, .none⟩,
   ⟨c!"czech", true, true, false, false, false, .none⟩,
   ⟨c!"czechfcns", true, false, false, false, false, .none⟩,
   ⟨c!"czechvars", true, false, false, false, false, .none⟩,
   ⟨c!"czechmacros", true, false, false, false, false, .none⟩,
   ⟨c!"czechconsts", true, false, false, false, false, .none⟩,
   ⟨c!"czechtypes", true, false, false, false, false, .none⟩,
   ⟨c!"slovak", true, true, false, false, false, .none⟩,
   ⟨c!"slovakfcns", true, false, false, false, false, .none⟩,
   ⟨c!"slovakmacros", true, false, false, false, false, .none⟩,
   ⟨c!"slovakvars", true, false, false, false, false, .none⟩,
   ⟨c!"slovakconsts", true, false, false, false, false, .none⟩,
   ⟨c!"slovaktypes", true, false, false, false, false, .none⟩,
   ⟨c!"czechoslovak", true, true, false, false, false, .none⟩,
   ⟨c!"czechoslovakfcns", true, false, false, false, false, .none⟩,
   ⟨c!"czechoslovakmacros", true, false, false, false, false, .none⟩,
   ⟨c!"czechoslovakvars", true, false, false, false, false, .none⟩,
   ⟨c!"czechoslovakconsts", true, false, false, false, false, .none⟩,
   ⟨c!"czechoslovaktypes", true, false, false, false, false, .none⟩,
   ⟨c!"macrovarprefix", true, false, true, false, false, .string⟩,
   ⟨c!"macrovarprefixexclude", true, false, false, false, false, .none⟩,
   ⟨c!"tagprefix", true, false, true, false, false, .string⟩,
   ⟨c!"tagprefixexclude", true, false, false, false, false, .none⟩,
   ⟨c!"enumprefix", true, false, true, false, false, .string⟩,
   ⟨c!"enumprefixexclude", true, false, false, false, false, .none⟩,
   ⟨c!"filestaticprefix", true, false, true, false, false, .string⟩,
   ⟨c!"filestaticprefixexclude", true, false, false, false, false, .none⟩,
   ⟨c!"globalprefix", true, false, true, false, false, .string⟩,
   ⟨c!"globalprefixexclude", true, false, false, false, false, .none⟩,
   ⟨c!"typeprefix", true, false, true, false, false, .string⟩,
   ⟨c!"typeprefixexclude", true, false, false, false, false, .none⟩,
   ⟨c!"externalprefix", true, false, true, false, false, .string⟩,
   ⟨c!"externalprefixexclude", true, false, false, false, false, .none⟩,
   ⟨c!"localprefix", true, false, true, false, false, .string⟩,
   ⟨c!"localprefixexclude", true, false, false, false, false, .none⟩,
   ⟨c!"uncheckedmacroprefix", true, false, true, false, false, .string⟩,
   ⟨c!"uncheckedmacroprefixexclude", true, false, false, false, false, .none⟩,
   ⟨c!"constprefix", true, false, true, false, false, .string⟩,
   ⟨c!"constprefixexclude", true, false, false, false, false, .none⟩,
   ⟨c!"iterprefix", true, false, true, false, false, .string⟩,
   ⟨c!"iterprefixexclude", true, false, false, false, false, .none⟩,
   ⟨c!"protoparamprefix", true, false, true, false, false, .string⟩,
   ⟨c!"isoreserved", true, false, false, false, true, .none⟩,
   ⟨c!"cppnames", true, false, false, false, true, .none⟩,
   ⟨c!"isoreservedinternal", true, false, false, false, true, .none⟩,
   ⟨c!"distinctexternalnames", true, false, false, false, false, .none⟩,
   ⟨c!"externalnamelen", true, true, false, false, false, .number⟩,
   ⟨c!"externalnamecaseinsensitive", true, true, false, false, false, .none⟩,
   ⟨c!"distinctinternalnames", true, false, false, false, false, .none⟩,
   ⟨c!"internalnamelen", true, true, false, false, false, .number⟩,
   ⟨c!"internalnamecaseinsensitive", true, true, false, false, false, .none⟩,
   ⟨c!"internalnamelookalike", true, true, false, false, false, .none⟩,
   ⟨c!"protoparamname", true, false, false, false, true, .none⟩,
   ⟨c!"protoparammatch", true, false, false, false, true, .none⟩,
   ⟨c!"protoparamprefixexclude", true, false, false, false, false, .none⟩,
   ⟨c!"topuse", false, false, false, false, true, .none⟩,
   ⟨c!"exportlocal", false, false, false, false, true, .none⟩,
   ⟨c!"exportheader", false, false, false, false, true, .none⟩,
   ⟨c!"exportheadervar", false, false, false, false, true, .none⟩,
   ⟨c!"fielduse", false, false, false, false, true, .none⟩,
   ⟨c!"enummemuse", false, false, false, false, true, .none⟩,
   ⟨c!"constuse", false, false, false, false, true, .none⟩,
   ⟨c!"fcnuse", false, false, false, false, true, .none⟩,
   ⟨c!"paramuse", false, false, false, false, true, .none⟩,
   ⟨c!"typeuse", false, false, false, false, true, .none⟩,
   ⟨c!"varuse", false, false, false, false, true, .none⟩,
   ⟨c!"unusedspecial", false, false, false, false, true, .none⟩,
   ⟨c!"declundef", false, false, false, false, true, .none⟩,
   ⟨c!"specundef", false, false, false, false, true, .none⟩,
   ⟨c!"specundecl", false, false, false, false, false, .none⟩,
   ⟨c!"newdecl", false, false, false, false, false, .none⟩,
   ⟨c!"needspec", false, false, false, false, false, .none⟩,
   ⟨c!"nolib", false, false, true, true, false, .none⟩,
   ⟨c!"isolib", false, false, true, true, false, .none⟩,
   ⟨c!"strictlib", false, false, true, true, false, .none⟩,
   ⟨c!"unixlib", false, false, true, true, false, .none⟩,
   ⟨c!"unixstrictlib", false, false, true, true, false, .none⟩,
   ⟨c!"posixlib", false, false, true, true, false, .none⟩,
   ⟨c!"posixstrictlib", false, false, true, true, false, .none⟩,
   ⟨c!"whichlib", false, false, true, true, false, .none⟩,
   ⟨c!"warnposixheaders", false, false, false, false, false, .none⟩,
   ⟨c!"warnunixlib", false, false, false, false, false, .none⟩,
   ⟨c!"usevarargs", false, false, false, false, false, .none⟩,
   ⟨c!"caseinsensitivefilenames", false, false, false, false, false, .none⟩,
   ⟨c!"dump", false, false, false, true, false, .file⟩,
   ⟨c!"load", false, false, false, true, false, .file⟩,
   ⟨c!"singleinclude", false, false, false, true, false, .none⟩,
   ⟨c!"neverinclude", false, false, false, true, false, .none⟩,
   ⟨c!"skipsysheaders", false, false, false, true, false, .none⟩,
   ⟨c!"gnuextensions", false, false, false, false, false, .none⟩,
   ⟨c!"noparams", false, false, false, false, true, .none⟩,
   ⟨c!"oldstyle", false, false, false, false, true, .none⟩,
   ⟨c!"maintype", false, false, false, false, false, .none⟩,
   ⟨c!"exitarg", false, false, false, false, true, .none⟩,
   ⟨c!"shadow", false, false, false, false, true, .none⟩,
   ⟨c!"incondefslib", false, false, false, false, true, .none⟩,
   ⟨c!"overload", false, false, false, false, true, .none⟩,
   ⟨c!"nestedextern", false, false, false, false, true, .none⟩,
   ⟨c!"redecl", false, false, false, false, true, .none⟩,
   ⟨c!"redef", false, false, false, false, false, .none⟩,
   ⟨c!"imptype", false, false, false, false, true, .none⟩,
   ⟨c!"tmpdir", false, false, false, true, false, .dir⟩,
   ⟨c!"larchpath", false, false, false, true, false, .path⟩,
   ⟨c!"lclimportdir", false, false, false, true, false, .dir⟩,
   ⟨c!"sysdirs", false, false, false, true, false, .path⟩,
   ⟨c!"skipisoheaders", false, false, false, false, false, .none⟩,
   ⟨c!"skipposixheaders", false, false, false, false, false, .none⟩,
   ⟨c!"sysdirerrors", false, false, false, false, true, .none⟩,
   ⟨c!"sysdirexpandmacros", false, false, false, false, false, .none⟩,
   ⟨c!"I<directory>", false, false, false, true, false, .special⟩,
   ⟨c!"S<directory>", false, false, false, true, false, .special⟩,
   ⟨c!"exportany", false, true, false, false, false, .none⟩,
   ⟨c!"exportfcn", false, false, false, false, true, .none⟩,
   ⟨c!"exportmacro", false, false, false, false, true, .none⟩,
   ⟨c!"exporttype", false, false, false, false, true, .none⟩,
   ⟨c!"exportvar", false, false, false, false, true, .none⟩,
   ⟨c!"exportconst", false, false, false, false, true, .none⟩,
   ⟨c!"exportiter", false, false, false, false, true, .none⟩,
   ⟨c!"linelen", false, false, false, false, false, .number⟩,
   ⟨c!"indentspaces", false, false, false, false, false, .number⟩,
   ⟨c!"locindentspaces", false, false, false, false, false, .number⟩,
   ⟨c!"showdeephistory", false, false, false, false, false, .none⟩,
   ⟨c!"showcolumn", false, false, false, false, false, .none⟩,
   ⟨c!"showloadloc", false, false, false, false, false, .none⟩,
   ⟨c!"csv", false, false, true, true, false, .file⟩,
   ⟨c!"csvoverwrite", false, false, false, false, false, .none⟩,
   ⟨c!"parenfileformat", false, false, false, false, false, .none⟩,
   ⟨c!"htmlfileformat", false, false, false, false, false, .none⟩,
   ⟨c!"showfunc", false, false, false, false, false, .none⟩,
   ⟨c!"showallconjs", false, false, false, false, false, .none⟩,
   ⟨c!"impconj", false, false, false, false, false, .none⟩,
   ⟨c!"expect", false, false, false, true, false, .number⟩,
   ⟨c!"lclexpect", false, false, false, true, false, .number⟩,
   ⟨c!"partial", false, true, true, false, false, .none⟩,
   ⟨c!"lh", false, false, false, true, false, .none⟩,
   ⟨c!"lcs", false, false, false, true, false, .none⟩,
   ⟨c!"warnflags", false, false, false, false, false, .none⟩,
   ⟨c!"warnrc", false, false, false, false, false, .none⟩,
   ⟨c!"badflag", false, false, false, false, false, .none⟩,
   ⟨c!"fileextensions", false, false, false, false, false, .none⟩,
   ⟨c!"help", false, false, false, true, false, .special⟩,
   ⟨c!"f", false, false, true, true, false, .file⟩,
   ⟨c!"i", false, false, true, true, false, .file⟩,
   ⟨c!"nof", false, false, false, true, false, .none⟩,
   ⟨c!"commentchar", false, false, false, false, false, .char⟩,
   ⟨c!"controlnestdepth", false, false, false, false, true, .number⟩,
   ⟨c!"stringliterallen", false, false, false, false, true, .number⟩,
   ⟨c!"numstructfields", false, false, false, false, true, .number⟩,
   ⟨c!"numenummembers", false, false, false, false, true, .number⟩,
   ⟨c!"includenest", false, false, false, false, true, .number⟩,
   ⟨c!"ansi89limits", false, true, false, false, false, .none⟩,
   ⟨c!"iso99limits", false, true, false, false, false, .none⟩,
   ⟨c!"D<initializer>", false, false, false, true, false, .special⟩,
   ⟨c!"U<initializer>", false, false, false, true, false, .special⟩,
   ⟨c!"unrecogdirective", false, false, false, false, false, .none⟩,
   ⟨c!"supcounts", false, false, false, true, false, .none⟩,
   ⟨c!"limit", false, false, false, false, false, .number⟩,
   ⟨c!"syntax", false, false, false, false, false, .none⟩,
   ⟨c!"trytorecover", false, false, false, false, false, .none⟩,
   ⟨c!"preproc", false, false, false, false, false, .none⟩,
   ⟨c!"type", false, false, false, false, false, .none⟩,
   ⟨c!"stringliteraltoolong", false, false, false, false, false, .none⟩,
   ⟨c!"stringliteralnoroomfinalnull", false, false, false, false, true, .none⟩,
   ⟨c!"stringliteralnoroom", false, false, false, false, true, .none⟩,
   ⟨c!"stringliteralsmaller", false, false, false, false, true, .none⟩,
   ⟨c!"enummembers", false, false, false, false, true, .none⟩,
   ⟨c!"formattype", false, false, false, false, false, .none⟩,
   ⟨c!"formatconst", false, false, false, false, true, .none⟩,
   ⟨c!"formatcode", false, false, false, false, false, .none⟩,
   ⟨c!"forwarddecl", false, false, false, false, true, .none⟩,
   ⟨c!"voidabstract", false, false, false, false, true, .none⟩,
   ⟨c!"castfcnptr", false, false, false, false, false, .none⟩,
   ⟨c!"charindex", false, false, false, false, true, .none⟩,
   ⟨c!"enumindex", false, false, false, false, true, .none⟩,
   ⟨c!"boolint", false, false, false, false, true, .none⟩,
   ⟨c!"charint", false, false, false, false, true, .none⟩,
   ⟨c!"enumint", false, false, false, false, true, .none⟩,
   ⟨c!"longint", false, false, false, false, true, .none⟩,
   ⟨c!"shortint", false, false, false, false, true, .none⟩,
   ⟨c!"floatdouble", false, false, false, false, true, .none⟩,
   ⟨c!"ignorequals", false, false, false, false, true, .none⟩,
   ⟨c!"duplicatequals", false, false, false, false, false, .none⟩,
   ⟨c!"ignoresigns", false, false, false, false, true, .none⟩,
   ⟨c!"numliteral", false, false, false, false, true, .none⟩,
   ⟨c!"charintliteral", false, false, false, false, true, .none⟩,
   ⟨c!"relaxquals", false, false, false, false, true, .none⟩,
   ⟨c!"relaxtypes", false, false, false, false, true, .none⟩,
   ⟨c!"charunsignedchar", false, false, false, false, true, .none⟩,
   ⟨c!"matchanyintegral", false, false, false, false, true, .none⟩,
   ⟨c!"longunsignedintegral", false, false, false, false, true, .none⟩,
   ⟨c!"longintegral", false, false, false, false, true, .none⟩,
   ⟨c!"longunsignedunsignedintegral", false, false, false, false, true, .none⟩,
   ⟨c!"longsignedintegral", false, false, false, false, true, .none⟩,
   ⟨c!"zeroptr", false, false, false, false, false, .none⟩,
   ⟨c!"zerobool", false, false, false, false, true, .none⟩,
   ⟨c!"repeatunrecog", false, false, false, false, false, .none⟩,
   ⟨c!"sysunrecog", false, false, false, false, false, .none⟩,
   ⟨c!"unrecog", false, false, false, false, false, .none⟩,
   ⟨c!"annotationerror", false, false, false, false, false, .none⟩,
   ⟨c!"commenterror", false, false, false, false, false, .none⟩,
   ⟨c!"warnuse", false, false, false, false, false, .none⟩,
   ⟨c!"bufferoverflow", false, false, false, false, true, .none⟩,
   ⟨c!"bufferoverflowhigh", false, false, false, false, true, .none⟩,
   ⟨c!"implementationoptional", false, false, false, false, true, .none⟩,
   ⟨c!"legacy", false, false, false, false, true, .none⟩,
   ⟨c!"multithreaded", false, false, false, false, true, .none⟩,
   ⟨c!"portability", false, false, false, false, true, .none⟩,
   ⟨c!"superuser", false, false, false, false, true, .none⟩,
   ⟨c!"toctou", false, false, false, false, true, .none⟩,
   ⟨c!"unixstandard", false, false, false, false, true, .none⟩,
   ⟨c!"its4mostrisky", false, true, false, false, false, .none⟩,
   ⟨c!"its4veryrisky", false, true, false, false, false, .none⟩,
   ⟨c!"its4risky", false, true, false, false, false, .none⟩,
   ⟨c!"its4moderate", false, true, false, false, false, .none⟩,
   ⟨c!"its4low", false, true, false, false, false, .none⟩,
   ⟨c!"nocomments", false, false, false, false, false, .none⟩,
   ⟨c!"noaccess", false, false, false, false, false, .none⟩,
   ⟨c!"unrecogcomments", false, false, false, false, false, .none⟩,
   ⟨c!"unrecogflagcomments", false, false, false, false, false, .none⟩,
   ⟨c!"tmpcomments", false, false, false, false, true, .none⟩,
   ⟨c!"lintcomments", false, false, false, false, false, .none⟩,
   ⟨c!"warnlintcomments", false, false, false, false, true, .none⟩,
   ⟨c!"continuecomment", false, false, false, false, false, .none⟩,
   ⟨c!"slashslashcomment", false, false, false, false, false, .none⟩,
   ⟨c!"nestcomment", false, false, false, false, false, .none⟩,
   ⟨c!"quiet", false, false, false, false, false, .none⟩,
   ⟨c!"messagestreamstdout", false, false, true, true, false, .none⟩,
   ⟨c!"messagestreamstderr", false, false, true, true, false, .none⟩,
   ⟨c!"messagestream", false, false, false, true, false, .file⟩,
   ⟨c!"warningstreamstdout", false, false, true, true, false, .none⟩,
   ⟨c!"warningstreamstderr", false, false, true, true, false, .none⟩,
   ⟨c!"warningstream", false, false, false, true, false, .file⟩,
   ⟨c!"errorstreamstdout", false, false, true, true, false, .none⟩,
   ⟨c!"errorstreamstderr", false, false, true, true, false, .none⟩,
   ⟨c!"errorstream", false, false, false, true, false, .file⟩,
   ⟨c!"streamoverwrite", false, false, false, true, false, .none⟩,
   ⟨c!"showsummary", false, false, false, false, false, .none⟩,
   ⟨c!"showscan", false, false, false, false, false, .none⟩,
   ⟨c!"warnsysfiles", false, false, false, false, false, .none⟩,
   ⟨c!"stats", false, false, false, true, false, .none⟩,
   ⟨c!"timedist", false, false, false, true, false, .none⟩,
   ⟨c!"showalluses", false, false, false, true, false, .none⟩,
   ⟨c!"hints", false, false, false, false, false, .none⟩,
   ⟨c!"forcehints", false, false, false, false, false, .none⟩,
   ⟨c!"bugslimit", false, false, false, false, false, .number⟩,
   ⟨c!"debugfcnconstraint", false, false, false, false, false, .none⟩,
   ⟨c!"grammar", false, true, true, false, false, .none⟩,
   ⟨c!"keep", false, false, true, false, false, .none⟩,
   ⟨c!"nopp", false, false, true, false, false, .none⟩,
   ⟨c!"showsourceloc", false, false, true, false, false, .none⟩]

/-- `NUMFLAGS`, `src/Headers/flag_codes.h:26-27`. -/
abbrev NUMFLAGS : Nat := 488

/-- The flags of the mode `standard`, `src/context.c:1029-1111`. -/
def mode_standard : List Nat :=
  [FLG_ENUMINT, FLG_MACROMATCHNAME, FLG_STRINGLITNOROOM, FLG_STRINGLITNOROOMFINALNULL,
   FLG_MACROUNDEF, FLG_RELAXQUALS, FLG_USEALLGLOBS, FLG_CHECKSTRICTGLOBALS,
   FLG_CHECKSTRICTGLOBALIAS, FLG_CHECKEDGLOBALIAS, FLG_CHECKMODGLOBALIAS, FLG_PREDBOOLOTHERS,
   FLG_PREDBOOLINT, FLG_UNSIGNEDCOMPARE, FLG_PARAMUNUSED, FLG_VARUNUSED, FLG_FUNCUNUSED,
   FLG_TYPEUNUSED, FLG_ABSTRACTCOMPARE, FLG_CONSTUNUSED, FLG_ENUMMEMUNUSED, FLG_FIELDUNUSED,
   FLG_PTRNUMCOMPARE, FLG_BOOLCOMPARE, FLG_UNSIGNEDCOMPARE, FLG_MUTREP, FLG_NOEFFECT,
   FLG_IMPTYPE, FLG_RETVALOTHER, FLG_RETVALBOOL, FLG_RETVALINT, FLG_SPECUNDEF, FLG_INCONDEFS,
   FLG_INCONDEFSLIB, FLG_MISPLACEDSHAREQUAL, FLG_MATCHFIELDS, FLG_FORMATCONST, FLG_MACROPARAMS,
   FLG_MACROASSIGN, FLG_SEFPARAMS, FLG_MACROSTMT, FLG_MACROPARENS, FLG_MACROFCNDECL,
   FLG_MACROCONSTDECL, FLG_MACROREDEF, FLG_INFLOOPS, FLG_UNREACHABLE, FLG_NORETURN,
   FLG_CASEBREAK, FLG_MISSCASE, FLG_USEDEF, FLG_FIRSTCASE, FLG_NESTEDEXTERN, FLG_NUMLITERAL,
   FLG_ZEROBOOL, FLG_NULLDEREF, FLG_NULLSTATE, FLG_NULLASSIGN, FLG_NULLPASS, FLG_NULLRET,
   FLG_ALLOCMISMATCH, FLG_COMPDEF, FLG_COMPMEMPASS, FLG_UNIONDEF, FLG_RETSTACK, FLG_EXPOSETRANS,
   FLG_OBSERVERTRANS, FLG_DEPENDENTTRANS, FLG_NEWREFTRANS, FLG_ONLYTRANS, FLG_OWNEDTRANS,
   FLG_FRESHTRANS, FLG_SHAREDTRANS, FLG_TEMPTRANS, FLG_KEPTTRANS, FLG_REFCOUNTTRANS,
   FLG_STATICTRANS, FLG_UNKNOWNTRANS, FLG_KEEPTRANS, FLG_IMMEDIATETRANS, FLG_NUMABSTRACTCAST,
   FLG_EXPORTLOCAL, FLG_USERELEASED, FLG_ALIASUNIQUE, FLG_MAYALIASUNIQUE, FLG_MUSTFREEONLY,
   FLG_MUSTFREEFRESH, FLG_MUSTDEFINE, FLG_GLOBSTATE, FLG_COMPDESTROY, FLG_MUSTNOTALIAS,
   FLG_MEMIMPLICIT, FLG_BRANCHSTATE, FLG_STATETRANSFER, FLG_STATEMERGE, FLG_EVALORDER,
   FLG_SHADOW, FLG_READONLYSTRINGS, FLG_EXITARG, FLG_IMPCHECKEDSPECGLOBALS, FLG_MODGLOBS,
   FLG_WARNLINTCOMMENTS, FLG_IFEMPTY, FLG_REALCOMPARE, FLG_BOOLOPS, FLG_PTRNEGATE,
   FLG_SHIFTNEGATIVE, FLG_SHIFTIMPLEMENTATION, FLG_BUFFEROVERFLOWHIGH, FLG_BUFFEROVERFLOW]

/-- The flags of the mode `weak`, `src/context.c:1115-1142`. -/
def mode_weak : List Nat :=
  [FLG_BOOLINT, FLG_CHARINT, FLG_FLOATDOUBLE, FLG_LONGINT, FLG_SHORTINT, FLG_ENUMINT,
   FLG_RELAXQUALS, FLG_FORWARDDECL, FLG_CHARINDEX, FLG_NUMABSTRACTINDEX, FLG_ABSTVOIDP,
   FLG_USEALLGLOBS, FLG_CHARUNSIGNEDCHAR, FLG_PREDBOOLOTHERS, FLG_NUMABSTRACTLIT, FLG_VARUNUSED,
   FLG_FUNCUNUSED, FLG_TYPEUNUSED, FLG_CHECKSTRICTGLOBALS, FLG_MACROMATCHNAME, FLG_RETVALOTHER,
   FLG_IFEMPTY, FLG_BUFFEROVERFLOWHIGH, FLG_RETSTACK, FLG_PTRNEGATE, FLG_STATETRANSFER,
   FLG_STATEMERGE, FLG_LONGUNSIGNEDINTEGRAL, FLG_LONGUNSIGNEDUNSIGNEDINTEGRAL, FLG_NUMLITERAL,
   FLG_CHARINTLITERAL, FLG_ZEROBOOL, FLG_BUFFEROVERFLOWHIGH, FLG_STRINGLITNOROOM,
   FLG_STRINGLITNOROOMFINALNULL]

/-- The flags of the mode `checks`, `src/context.c:1146-1242`. -/
def mode_checks : List Nat :=
  [FLG_EXPORTLOCAL, FLG_IMPTYPE, FLG_NUMABSTRACTCAST, FLG_ABSTRACTCOMPARE, FLG_STATETRANSFER,
   FLG_STATEMERGE, FLG_CHECKSTRICTGLOBALIAS, FLG_CHECKEDGLOBALIAS, FLG_CHECKMODGLOBALIAS,
   FLG_UNCHECKEDGLOBALIAS, FLG_FORMATCONST, FLG_STRINGLITNOROOM, FLG_STRINGLITNOROOMFINALNULL,
   FLG_STRINGLITSMALLER, FLG_EXITARG, FLG_PTRNUMCOMPARE, FLG_BOOLCOMPARE, FLG_UNSIGNEDCOMPARE,
   FLG_MACROUNDEF, FLG_MUSTMOD, FLG_ALLGLOBALS, FLG_PREDBOOLOTHERS, FLG_PREDBOOLPTR,
   FLG_PREDBOOLINT, FLG_USEALLGLOBS, FLG_MUTREP, FLG_RETALIAS, FLG_RETEXPOSE, FLG_ASSIGNEXPOSE,
   FLG_CASTEXPOSE, FLG_FUNCUNUSED, FLG_GLOBALSIMPMODIFIESNOTHING, FLG_TYPEUNUSED,
   FLG_FIELDUNUSED, FLG_PARAMUNUSED, FLG_VARUNUSED, FLG_CONSTUNUSED, FLG_ENUMMEMUNUSED,
   FLG_NOEFFECT, FLG_EXPORTHEADER, FLG_EXPORTHEADERVAR, FLG_RETVALOTHER, FLG_RETVALBOOL,
   FLG_RETVALINT, FLG_SPECUNDEF, FLG_IMPCHECKMODINTERNALS, FLG_DECLUNDEF, FLG_INCONDEFS,
   FLG_INCONDEFSLIB, FLG_MISPLACEDSHAREQUAL, FLG_REDUNDANTSHAREQUAL, FLG_NUMABSTRACTPRINT,
   FLG_MATCHFIELDS, FLG_MACROPARAMS, FLG_MACROASSIGN, FLG_DECLPARAMMATCH, FLG_FCNDEREF,
   FLG_FIRSTCASE, FLG_SEFPARAMS, FLG_SEFUNSPEC, FLG_MACROSTMT, FLG_MACROPARENS,
   FLG_MACROCONSTDECL, FLG_MACROFCNDECL, FLG_MACROREDEF, FLG_INFLOOPS, FLG_INFLOOPSUNCON,
   FLG_UNREACHABLE, FLG_NORETURN, FLG_CASEBREAK, FLG_MISSCASE, FLG_EVALORDER, FLG_USEDEF,
   FLG_NESTEDEXTERN, FLG_MULTITHREADED, FLG_PORTABILITY, FLG_SUPERUSER,
   FLG_IMPLEMENTATIONOPTIONAL, FLG_BUFFEROVERFLOWHIGH, FLG_NULLSTATE, FLG_NULLDEREF,
   FLG_NULLASSIGN, FLG_NULLPASS, FLG_NULLRET, FLG_ALLOCMISMATCH, FLG_COMPDEF, FLG_COMPMEMPASS,
   FLG_UNIONDEF, FLG_RETSTACK, FLG_EXPOSETRANS, FLG_OBSERVERTRANS, FLG_DEPENDENTTRANS,
   FLG_NEWREFTRANS, FLG_ONLYTRANS, FLG_OWNEDTRANS, FLG_FRESHTRANS, FLG_SHAREDTRANS,
   FLG_TEMPTRANS, FLG_KEPTTRANS, FLG_REFCOUNTTRANS, FLG_STATICTRANS, FLG_UNKNOWNTRANS,
   FLG_STATICINITTRANS, FLG_UNKNOWNINITTRANS, FLG_KEEPTRANS, FLG_IMMEDIATETRANS,
   FLG_ONLYUNQGLOBALTRANS, FLG_USERELEASED, FLG_ALIASUNIQUE, FLG_MAYALIASUNIQUE,
   FLG_MUSTFREEONLY, FLG_MUSTFREEFRESH, FLG_MUSTDEFINE, FLG_GLOBSTATE, FLG_COMPDESTROY,
   FLG_MUSTNOTALIAS, FLG_MEMIMPLICIT, FLG_BRANCHSTATE, FLG_NULLPOINTERARITH, FLG_SHADOW,
   FLG_DEPARRAYS, FLG_REDECL, FLG_READONLYSTRINGS, FLG_READONLYTRANS, FLG_LOOPLOOPBREAK,
   FLG_SWITCHLOOPBREAK, FLG_MODGLOBS, FLG_CHECKSTRICTGLOBALS, FLG_IMPCHECKEDSPECGLOBALS,
   FLG_MACROMATCHNAME, FLG_WARNLINTCOMMENTS, FLG_INCLUDENEST, FLG_ISORESERVED, FLG_CPPNAMES,
   FLG_NOPARAMS, FLG_IFEMPTY, FLG_WHILEEMPTY, FLG_REALCOMPARE, FLG_REALRELATECOMPARE,
   FLG_BOOLOPS, FLG_SHIFTNEGATIVE, FLG_SHIFTIMPLEMENTATION, FLG_BUFFEROVERFLOWHIGH,
   FLG_BUFFEROVERFLOW]

/-- The flags of the mode `strict`, `src/context.c:1246-1382`. -/
def mode_strict : List Nat :=
  [FLG_ABSTRACTCOMPARE, FLG_CHECKSTRICTGLOBALIAS, FLG_NUMABSTRACTCAST, FLG_CHECKEDGLOBALIAS,
   FLG_CHECKMODGLOBALIAS, FLG_UNCHECKEDGLOBALIAS, FLG_MODFILESYSTEM, FLG_MACROMATCHNAME,
   FLG_FORMATCONST, FLG_NUMABSTRACTPRINT, FLG_STRINGLITNOROOM, FLG_STRINGLITNOROOMFINALNULL,
   FLG_STRINGLITSMALLER, FLG_STATETRANSFER, FLG_STATEMERGE, FLG_MACROUNDEF, FLG_MUTREP,
   FLG_MUSTMOD, FLG_ALLGLOBALS, FLG_IMPTYPE, FLG_MODNOMODS, FLG_MODGLOBSUNSPEC,
   FLG_MODSTRICTGLOBSUNSPEC, FLG_GLOBUNSPEC, FLG_SIZEOFTYPE, FLG_EXPORTHEADER,
   FLG_EXPORTHEADERVAR, FLG_NOPARAMS, FLG_OLDSTYLE, FLG_EXITARG, FLG_RETSTACK, FLG_FCNDEREF,
   FLG_ONLYUNQGLOBALTRANS, FLG_GLOBALSIMPMODIFIESNOTHING, FLG_PREDBOOLOTHERS, FLG_PREDBOOLPTR,
   FLG_PREDBOOLINT, FLG_INTERNALGLOBS, FLG_INTERNALGLOBSNOGLOBS, FLG_USEALLGLOBS, FLG_RETALIAS,
   FLG_MODGLOBS, FLG_MODGLOBSUNSPEC, FLG_MODGLOBSUNCHECKED, FLG_RETEXPOSE, FLG_ASSIGNEXPOSE,
   FLG_CASTEXPOSE, FLG_NOEFFECTUNCON, FLG_EVALORDERUNCON, FLG_FUNCUNUSED, FLG_EXPORTITER,
   FLG_EXPORTCONST, FLG_TYPEUNUSED, FLG_FIELDUNUSED, FLG_PARAMUNUSED, FLG_TOPUNUSED,
   FLG_CONSTUNUSED, FLG_ENUMMEMUNUSED, FLG_VARUNUSED, FLG_NULLPOINTERARITH, FLG_POINTERARITH,
   FLG_PTRNUMCOMPARE, FLG_BOOLCOMPARE, FLG_UNSIGNEDCOMPARE, FLG_NOEFFECT, FLG_RETVALINT,
   FLG_RETVALBOOL, FLG_RETVALOTHER, FLG_ISORESERVED, FLG_ISORESERVEDLOCAL, FLG_CPPNAMES,
   FLG_RETVALBOOL, FLG_RETVALINT, FLG_SPECUNDEF, FLG_DECLUNDEF, FLG_STRICTOPS, FLG_INCONDEFS,
   FLG_MISPLACEDSHAREQUAL, FLG_REDUNDANTSHAREQUAL, FLG_INCONDEFSLIB, FLG_MATCHFIELDS,
   FLG_EXPORTMACRO, FLG_EXPORTVAR, FLG_EXPORTFCN, FLG_EXPORTTYPE, FLG_EXPORTLOCAL,
   FLG_MACROPARAMS, FLG_MACROASSIGN, FLG_SEFPARAMS, FLG_SEFUNSPEC, FLG_MACROSTMT,
   FLG_MACROPARENS, FLG_MACROFCNDECL, FLG_MACROCONSTDECL, FLG_MACROREDEF, FLG_MACROEMPTY,
   FLG_INFLOOPS, FLG_INFLOOPSUNCON, FLG_UNREACHABLE, FLG_NORETURN, FLG_CASEBREAK, FLG_MISSCASE,
   FLG_USEDEF, FLG_EVALORDER, FLG_MODUNCON, FLG_MODUNCONNOMODS, FLG_MODINTERNALSTRICT,
   FLG_MODOBSERVERUNCON, FLG_NESTEDEXTERN, FLG_FIRSTCASE, FLG_MULTITHREADED, FLG_PORTABILITY,
   FLG_SUPERUSER, FLG_IMPLEMENTATIONOPTIONAL, FLG_BUFFEROVERFLOWHIGH, FLG_BUFFEROVERFLOW,
   FLG_TOCTOU, FLG_NULLSTATE, FLG_NULLDEREF, FLG_NULLASSIGN, FLG_NULLPASS, FLG_NULLRET,
   FLG_ALLOCMISMATCH, FLG_COMPDEF, FLG_COMPMEMPASS, FLG_UNIONDEF, FLG_BOUNDSREAD,
   FLG_BOUNDSWRITE, FLG_LIKELYBOUNDSREAD, FLG_LIKELYBOUNDSWRITE, FLG_CHECKPOST, FLG_EXPOSETRANS,
   FLG_OBSERVERTRANS, FLG_DEPENDENTTRANS, FLG_NEWREFTRANS, FLG_ONLYTRANS, FLG_OWNEDTRANS,
   FLG_FRESHTRANS, FLG_SHAREDTRANS, FLG_TEMPTRANS, FLG_KEPTTRANS, FLG_REFCOUNTTRANS,
   FLG_STATICTRANS, FLG_UNKNOWNTRANS, FLG_KEEPTRANS, FLG_IMMEDIATETRANS, FLG_STATICINITTRANS,
   FLG_UNKNOWNINITTRANS, FLG_USERELEASED, FLG_ALIASUNIQUE, FLG_MAYALIASUNIQUE, FLG_MUSTFREEONLY,
   FLG_MUSTFREEFRESH, FLG_MUSTDEFINE, FLG_GLOBSTATE, FLG_COMPDESTROY, FLG_MUSTNOTALIAS,
   FLG_MEMIMPLICIT, FLG_BRANCHSTATE, FLG_DECLPARAMNAME, FLG_DECLPARAMMATCH, FLG_SHADOW,
   FLG_DEPARRAYS, FLG_STRICTDESTROY, FLG_STRICTUSERELEASED, FLG_STRICTBRANCHSTATE, FLG_REDECL,
   FLG_READONLYSTRINGS, FLG_READONLYTRANS, FLG_LOOPLOOPBREAK, FLG_LOOPSWITCHBREAK,
   FLG_SWITCHLOOPBREAK, FLG_SWITCHSWITCHBREAK, FLG_LOOPLOOPCONTINUE, FLG_CHECKSTRICTGLOBALS,
   FLG_IMPCHECKEDSPECGLOBALS, FLG_ALLGLOBALS, FLG_IMPCHECKEDSTRICTGLOBALS,
   FLG_IMPCHECKEDSTRICTSTATICS, FLG_IMPCHECKEDSTRICTSPECGLOBALS, FLG_IMPCHECKMODINTERNALS,
   FLG_WARNMISSINGGLOBALS, FLG_WARNMISSINGGLOBALSNOGLOBS, FLG_WARNLINTCOMMENTS,
   FLG_ISORESERVEDLOCAL, FLG_INCLUDENEST, FLG_STRINGLITERALLEN, FLG_NUMSTRUCTFIELDS,
   FLG_NUMENUMMEMBERS, FLG_CONTROLNESTDEPTH, FLG_FORBLOCK, FLG_WHILEBLOCK, FLG_FOREMPTY,
   FLG_WHILEEMPTY, FLG_IFEMPTY, FLG_IFBLOCK, FLG_ELSEIFCOMPLETE, FLG_REALCOMPARE, FLG_BOOLOPS,
   FLG_REALRELATECOMPARE, FLG_SYSTEMDIRERRORS, FLG_UNUSEDSPECIAL, FLG_SHIFTNEGATIVE,
   FLG_SHIFTIMPLEMENTATION, FLG_BITWISEOPS, FLG_BUFFEROVERFLOWHIGH, FLG_BUFFEROVERFLOW]

end Splint.Flag
