import Verif.Parse.Store
/-!
# Table descriptors

The `IsDescription` classes and array atoms of `/repo/freesif/sequentialparser/parsers.py`
(columns in order of `pos`; equal positions are ordered by name as in PyTables).
-/

namespace Verif.Parse

/-- `Int32Col` columns -/
def ints (names : List String) : List Col := names.map fun n => ⟨n, .int, .sc⟩
/-- `Float32Col` columns -/
def flts (names : List String) : List Col := names.map fun n => ⟨n, .flt, .sc⟩

/-- names of the records sharing `td_rec` (parsers.py:694-696) -/
def tdNames : List String :=
  ["TDMATER", "TDSECT", "TDSETNAM", "TDSUPNAM", "TSLAYER", "TDSCONC", "TDLOAD", "TDRESREF",
   "TDBODNAM", "TDRSNAM", "TDSCATTER"]

/-- names of the records sharing `compdef_rec` (parsers.py:1591) -/
def compdefNames : List String := ["RDFORCES", "RDNODRES", "RDSTRAIN", "RDSTRESS", "RDELNFOR"]

/-- names of the records sharing `wcommon1_rec` (parsers.py:2167) -/
def wcommonNames : List String := ["W1EXFORC", "W1MOTION", "W2EXFDIF", "W2EXFSUM"]

/-- the dict `descriptors` -/
def descriptor (name : String) : Option (List Col) :=
  if name ∈ tdNames then         -- parsers.py:687-692, 698-699
    some (ints ["nfield", "idno", "codnam", "codtxt"] ++ [⟨"name", .str 64, .sc⟩])
  else if name ∈ compdefNames then   -- parsers.py:1593-1596
    some (ints ["nfield", "ir", "lenrec"])
  else if name ∈ wcommonNames then   -- parsers.py:2169-2174
    some (ints ["nfield", "ibcond", "iwres", "icompl"] ++ [⟨"data", .cpx, .vec 6⟩])
  else match name with
  | "HIERARCH" =>   -- parsers.py:536-544
    some (ints ["nfield", "ihref", "iselty", "indsel", "islevl", "itref", "ihpref", "nsub"])
  | "DATE" | "TEXT" =>   -- parsers.py:604-608
    some (ints ["type", "subtype", "nrecs", "nbyte"])
  | "IDENT" =>   -- parsers.py:645-648
    some (ints ["slevel", "seltyp", "selmod"])
  | "GNODE" =>   -- parsers.py:744-748
    some (ints ["nodex", "nodeno", "ndof", "odof"])
  | "GCOORD" =>   -- parsers.py:758-762
    some (ints ["nodeno"] ++ flts ["xcoord", "ycoord", "zcoord"])
  | "GELMNT1" =>   -- parsers.py:772-776
    some (ints ["elnox", "elno", "eltyp", "eltyad"])
  | "GELMNT2" =>   -- parsers.py:812-818
    some (ints ["subno", "slevel", "stype", "addno"] ++ [⟨"t", .flt, .vec 12⟩] ++ ints ["nnod"])
  | "GELREF1" =>   -- parsers.py:853-865
    some (ints ["elno", "matno", "addno", "intno", "mintno", "strano", "streno", "strepono",
      "geono", "fixno", "eccno", "transno"])
  | "GECCEN" =>   -- parsers.py:930-934
    some (ints ["eccno"] ++ flts ["ex", "ey", "ez"])
  | "GUNIVEC" =>   -- parsers.py:942-946
    some (ints ["transno"] ++ flts ["unix", "uniy", "uniz"])
  | "GELTH" =>   -- parsers.py:954-957
    some (ints ["geono"] ++ flts ["th"] ++ ints ["nint"])
  | "GBEAMG" =>   -- parsers.py:965-981
    some (ints ["geono"] ++ flts ["void", "area", "ix", "iy", "iz", "iyz", "wxmin", "wymin",
      "wzmin", "shary", "sharz", "shceny", "shcenz", "sy", "sz"])
  | "GBARM" =>   -- parsers.py:989-997
    some (ints ["geono"] ++ flts ["hz", "bt", "bb", "sfy", "sfz"] ++ ints ["nloby", "nlobz"])
  | "GBOX" =>   -- parsers.py:1005-1015
    some (ints ["geono"] ++ flts ["hz", "ty", "t_b", "tt", "by"] ++
      ints ["sfy", "sfz", "nloby", "nlobz"])
  | "GCHAN" =>   -- parsers.py:1023-1034
    some (ints ["geono"] ++ flts ["hz", "ty", "by", "tz"] ++
      ints ["sfy", "sfz", "empty", "k", "nloby", "nlobz"])
  | "GCHANR" =>   -- parsers.py:1042-1054
    some (ints ["geono"] ++ flts ["hz", "ty", "by", "tz"] ++
      ints ["sfy", "sfz", "empty", "k", "r", "nloby", "nlobz"])
  | "GDOBO" =>   -- parsers.py:1062-1072
    some (ints ["geono"] ++ flts ["hz", "ty", "by", "tt", "t_b"] ++
      ints ["sfy", "sfz", "nloby", "nlobz"])
  | "GIORH" =>   -- parsers.py:1080-1092
    some (ints ["geono"] ++ flts ["hz", "ty", "bt", "tt", "bb", "t_b"] ++
      ints ["sfy", "sfz", "nlobyt", "nlobyb", "nlobz"])
  | "GIORHR" =>   -- parsers.py:1100-1114
    some (ints ["geono"] ++ flts ["hz", "ty", "bt", "tt", "bb", "t_b"] ++ ints ["sfy", "sfz"] ++
      flts ["rt", "rb"] ++ ints ["nlobyt", "nlobyb", "nlobz"])
  | "GLSEC" =>   -- parsers.py:1122-1132
    some (ints ["geono"] ++ flts ["hz", "ty", "by", "tz"] ++ ints ["sfy", "sfz"] ++ flts ["k"] ++
      ints ["nloby", "nlobz"])
  | "GLSECR" =>   -- parsers.py:1140-1151
    some (ints ["geono"] ++ flts ["hz", "ty", "by", "tz"] ++ ints ["sfy", "sfz"] ++
      flts ["k", "r"] ++ ints ["nloby", "nlobz"])
  | "GPIPE" =>   -- parsers.py:1159-1167
    some (ints ["geono"] ++ flts ["di", "dy", "t"] ++ ints ["sfy", "sfz", "ncir", "nrad"])
  | "GUSYI" =>   -- parsers.py:1175-1189
    some (ints ["geono"] ++ flts ["hz", "ty", "bt", "b1", "tt", "bb", "b2", "t_b"] ++
      ints ["sfy", "sfz", "nlobyt", "nlobyb", "nlobz"])
  | "GSETMEMB" =>   -- parsers.py:1198-1203
    some (ints ["nfield", "isref", "index", "istype", "isorig"])
  | "MISOSEL" =>   -- parsers.py:1237-1243
    some (ints ["matno"] ++ flts ["young", "poiss", "rho", "damp", "alpha"])
  | "SCONCEPT" =>   -- parsers.py:1253-1260
    some (ints ["nfield", "ircon", "scontype", "sconrole", "irparent", "npart", "njoin"])
  | "SCONMESH" =>   -- parsers.py:1319-1324
    some (ints ["nfield", "ircon", "numrep", "typrep", "nferep"])
  | "BNBCD" =>   -- parsers.py:1363-1365
    some (ints ["nodeno", "ndof"])
  | "BLDEP" =>   -- parsers.py:1400-1404
    some (ints ["nodeno", "cnod", "ndof", "ndep"])
  | "BEUSLO" =>   -- parsers.py:1437-1445
    some (ints ["llc", "lotyp", "complx", "layer", "elno", "ndof", "intno", "side"])
  | "BGRAV" =>   -- parsers.py:1485-1492
    some (ints ["llc"] ++ flts ["empty1", "empty2"] ++ ints ["opt"] ++ flts ["gx", "gy", "gz"])
  | "BRIGAC" =>   -- parsers.py:1503-1523
    some (ints ["llc"] ++ flts ["empty1"] ++ ints ["complx"] ++ flts ["empty2", "xcoord",
      "ycoord", "zcoord", "empty3", "raccl1", "raccl2", "raccl3", "raccl4", "raccl5", "raccl6",
      "iaccl1", "iaccl2", "iaccl3", "iaccl4", "iaccl5", "iaccl6"])
  | "RSUPTRAN" | "HSUPTRAN" =>   -- parsers.py:1555-1558
    some (ints ["nfield", "itref"] ++ [⟨"t", .flt, .mat 4 4⟩])
  | "RDPOINTS" =>   -- parsers.py:1632-1641
    some (ints ["nfield", "ispalt", "iielno", "icoref", "ieltyp", "nsp", "ijkdim", "nsptra",
      "nlay"])
  | "RDIELCOR" =>   -- parsers.py:1715-1718
    some (ints ["nfield", "icoref", "igrid"])
  | "RDRESREF" =>   -- parsers.py:1784-1791
    some (ints ["nfield", "ires", "irno", "ieres", "icalty", "icompl", "numtyp"])
  | "RBLODCMB" | "RDRESCMB" =>   -- parsers.py:1835-1839
    some (ints ["nfield", "ires", "icompl", "nblc"])
  | "RVNODACC" | "RVNODDIS" | "RVNODVEL" =>   -- parsers.py:1875-1880
    some (ints ["nfield", "ires", "iinod", "irdva", "itrans"])
  | "RVFORCES" | "RVSTRAIN" | "RVSTRESS" =>   -- parsers.py:1926-1931
    some (ints ["nfield", "ires", "iielno", "ispalt", "ir"])
  | "WBODCON" =>   -- parsers.py:1986-1990
    some (ints ["nfield", "ibcond", "ibody", "numcon"])
  | "WDRESREF" =>   -- parsers.py:2022-2026
    some (ints ["nfield", "iwres", "nresrf", "numtyp"])
  | "WGLOBDEF" =>   -- parsers.py:2066-2071
    some (ints ["nfield"] ++ flts ["g", "ro"] ++ ints ["idepth"] ++ flts ["depth"])
  | "WBODY" =>   -- parsers.py:2097-2114
    some (ints ["nfield", "ibcond"] ++ flts ["clenb", "bmass", "wsarea", "wparea", "vol", "xcg",
      "ycg", "zcg", "xcb", "ycb", "zcb", "xrb", "yrb", "zrb"] ++ [⟨"t", .flt, .mat 4 4⟩])
  | "W1MATRIX" =>   -- parsers.py:2137-2144
    some (ints ["nfield", "imatrx", "ibconi", "ibconj", "iwres", "imtyp"] ++
      [⟨"hmat", .flt, .mat 6 6⟩])
  | "W1SFORCE" =>   -- parsers.py:2203-2209
    some (ints ["nfield", "ibcond", "isect", "iwres", "icompl"] ++ [⟨"data", .cpx, .vec 6⟩])
  | "W2HDRIFT" =>   -- parsers.py:2238-2242
    some (ints ["nfield", "ibcond", "iwres"] ++ [⟨"shfor", .flt, .vec 3⟩])
  | "W2MDRIFT" =>   -- parsers.py:2263-2267
    some (ints ["nfield", "ibcond", "iwres"] ++ [⟨"smfor", .flt, .vec 6⟩])
  | "WFKPOINT" =>   -- parsers.py:2292-2295
    some (ints ["nfield", "ifkpnt"] ++ [⟨"fkpnt", .flt, .vec 3⟩])
  | "WFLUIDKN" =>   -- parsers.py:2316-2322
    some (ints ["nfield", "iwres", "ifkpnt", "icompl"] ++ [⟨"p", .cpx, .sc⟩, ⟨"v", .cpx, .vec 3⟩])
  | "WSECTION" =>   -- parsers.py:2358-2366
    some (ints ["nfield", "ibody", "isect", "isecty", "secusr"] ++
      [⟨"p1", .flt, .vec 3⟩, ⟨"p2", .flt, .vec 3⟩, ⟨"p3", .flt, .vec 3⟩])
  | "WSURFACE" =>   -- parsers.py:2386-2394
    some (ints ["nfield", "iwres", "indxwr", "nnode", "icompl", "icompx", "icompy", "icompz"])
  | "WINPUT" =>   -- parsers.py:2440-2443
    some (ints ["nfield", "ibcond"] ++ [⟨"t", .flt, .mat 4 4⟩])
  | "W1PANPRE" =>   -- parsers.py:2462-2471
    some (ints ["nfield", "ibcond", "iwres", "ippan", "isymm1", "icompl"] ++ [⟨"p", .cpx, .sc⟩] ++
      ints ["ipan", "isymm2"])
  | _ => none

/-- the dict `atoms` -/
def atoms (name : String) : List Arr :=
  if name ∈ tdNames then [{ name := "text", kind := .str 64 }]   -- parsers.py:700
  else if name ∈ compdefNames then [{ name := "icomp", kind := .int }]   -- parsers.py:1624
  else match name with
  | "HIERARCH" => [{ name := "ihsref", kind := .int }]   -- parsers.py:548
  | "DATE" | "TEXT" => [{ name := "recs", kind := .str 72 }]   -- parsers.py:613-614
  | "GELMNT1" => [{ name := "nodin", kind := .int }]   -- parsers.py:780
  | "GELMNT2" => [{ name := "nod", kind := .int }]   -- parsers.py:822
  | "GELREF1" => [{ name := "geono", kind := .int }, { name := "fixno", kind := .int },
      { name := "eccno", kind := .int }, { name := "transno", kind := .int }]   -- parsers.py:869-872
  | "GSETMEMB" => [{ name := "irmemb", kind := .int }]   -- parsers.py:1207
  | "SCONCEPT" => [{ name := "irpart", kind := .int }, { name := "irjoin", kind := .int }]   -- parsers.py:1264-1265
  | "SCONMESH" => [{ name := "irferep", kind := .int }]   -- parsers.py:1329
  | "BNBCD" => [{ name := "fix", kind := .int }]   -- parsers.py:1369
  | "BLDEP" => [{ name := "deps", kind := .flt, shape := .vec 3 }]   -- parsers.py:1408
  | "BEUSLO" => [{ name := "rload", kind := .flt }, { name := "iload", kind := .flt }]   -- parsers.py:1449-1450
  | "RDPOINTS" => [{ name := "respoint", kind := .flt, shape := .vec 4 },
      { name := "xform", kind := .flt, shape := .mat 3 3 }]   -- parsers.py:1645-1646
  | "RDIELCOR" => [{ name := "gamma", kind := .flt }, { name := "beta", kind := .flt },
      { name := "alpha", kind := .flt }, { name := "layers", kind := .flt, shape := .vec 2 }]   -- parsers.py:1722-1725
  | "RDRESREF" => [{ name := "reftyps", kind := .flt, shape := .vec 3 }]   -- parsers.py:1795
  | "RBLODCMB" => [{ name := "blcs", kind := .flt, shape := .vec 3 }]   -- parsers.py:1844
  | "RDRESCMB" => [{ name := "rcs", kind := .flt, shape := .vec 3 }]   -- parsers.py:1845
  | "RVNODACC" => [{ name := "acc", kind := .flt }]   -- parsers.py:1886
  | "RVNODDIS" => [{ name := "dis", kind := .flt }]   -- parsers.py:1887
  | "RVNODVEL" => [{ name := "vel", kind := .flt }]   -- parsers.py:1888
  | "RVFORCES" => [{ name := "force", kind := .flt }]   -- parsers.py:1939
  | "RVSTRAIN" => [{ name := "strain", kind := .flt }]   -- parsers.py:1940
  | "RVSTRESS" => [{ name := "stress", kind := .flt }]   -- parsers.py:1941
  | "WBODCON" => [{ name := "refcond", kind := .flt, shape := .vec 3 }]   -- parsers.py:1994
  | "WDRESREF" => [{ name := "dir", kind := .flt, shape := .vec 2 },
      { name := "freq", kind := .flt, shape := .vec 2 },
      { name := "time", kind := .flt, shape := .vec 2 }]   -- parsers.py:2030-2032
  | "WSURFACE" => [{ name := "zelev", kind := .cpx, shape := .vec 4 }]   -- parsers.py:2398
  | _ => []

/-- columns of the created table: those of the descriptor and `_start`/`_stop` for each array
(parsers.py:303-331) -/
def boundCols : List Arr → List Col
  | [] => []
  | a :: as => ⟨a.name ++ "_start", .int, .sc⟩ :: ⟨a.name ++ "_stop", .int, .sc⟩ :: boundCols as

end Verif.Parse
