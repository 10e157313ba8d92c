import Verif.Parse.Descr
/-!
# Reading the records of each type

For every record type with a reader in `/repo/freesif/sequentialparser/parsers.py` the body of the
reader's `while` loop: from the values of the header record to the tuple stored in the table and
the sequences appended to the arrays.  The loops themselves are in `Verif.Parse.Parser`.
-/

namespace Verif.Parse
open Verif Verif.Seq

/-- The module level dicts that carry data from one record to another (parsers.py:108-134), and
the local variables `nlay, nok, noj, noi` of `rdielcor_reader`, which survive from one iteration
of its loop to the next. -/
structure Env where
  elem : Int → Option Int := fun _ => none                          -- elem_data
  rdpoints : Int → Option (Int × Int × Int × Int) := fun _ => none  -- rdpoints_data
  nsp : Int × Int → Option Int := fun _ => none                     -- nsp_data
  rdresref : Int → Option Int := fun _ => none                      -- rdresref_data
  lenrec : String × Int → Option Int := fun _ => none               -- lenrec_data
  grid : Option (Int × Int × Int × Int) := none

/-- `d[k] = v` -/
def upd {α β : Type} [DecidableEq α] (d : α → Option β) (k : α) (v : β) : α → Option β :=
  fun x => if x = k then some v else d x

/-- `d[k]` -/
def look {α β : Type} (d : α → Option β) (k : α) : Prog β :=
  match d k with
  | some v => .ret v
  | none => .fail .keyError

/-- `int(x)` -/
def int (x : PyF) : Prog Int := Prog.lift x.toInt
/-- `l[i]` -/
def idx (l : List PyF) (i : Nat) : Prog PyF := Prog.lift (pyIdx l i)
/-- `int(l[i])` -/
def intAt (l : List PyF) (i : Nat) : Prog Int := Prog.bind (idx l i) int

/-- number of nodes in the dict `elem_types` (parsers.py:70-79) -/
def elemNodes (t : Int) : Option Int :=
  if t = 15 then some 2
  else if t = 16 then some 2
  else if t = 18 then some 1
  else if t = 23 then some 3
  else if t = 24 then some 4
  else if t = 25 then some 3
  else if t = 26 then some 6
  else if t = 28 then some 8
  else none

/-- a number as a cell value -/
def num (x : PyF) : Val := .sc (.num x)
/-- numbers as cell values -/
def nums (l : List PyF) : List Val := l.map num
/-- a tuple of numbers as one value -/
def tup (l : List PyF) : Val := .vec (l.map .num)
/-- `tuple(complex(x,y) for x,y in zip(f[::2], f[1::2]))` -/
def complexes : List PyF → List Sc
  | a :: b :: r => .cpx a b :: complexes r
  | _ => []

/-- a Python float zero -/
def zero : PyF := .ofInt 0

/-- `l[i:j]` for Python integers -/
def pySliceI {α : Type} (l : List α) (i j : Int) : List α :=
  let pos := fun k : Int => if k < 0 then (k + l.length).toNat else k.toNat
  (l.drop (pos i)).take (pos j - pos i)

/-- pad with zeros or cut to `ncols` values (parsers.py:359-363 and 397-401) -/
def padCut (ncols : Nat) (rec : List PyF) : List PyF :=
  if rec.length = ncols then rec
  else if rec.length < ncols then rec ++ List.replicate (ncols - rec.length) zero
  else pyTake rec ((ncols : Int) - rec.length)

/-- the body of a reader's loop -/
abbrev Body := String → Env → List PyF → Prog (Env × Emit)

/-- parsers.py:343-372 `standard_record_reader`, loop body (lines 356-365) -/
def standardBody (cols : List Col) (skipfirst : Nat) : Body := fun _ env rec => do
  let ncols := cols.length
  let nAdd := if ncols > 4 then ncols - 4 else 0
  let rec' ← if nAdd ≠ 0 then do
      let more ← floats nAdd skipfirst
      pure (rec ++ more)
    else pure rec
  pure (env, { row := nums (padCut ncols rec') })

/-- parsers.py:375-410 `reader_optionalfields`, loop body (lines 391-403) -/
def optionalBody (cols : List Col) (skipfirst noptf : Nat) : Body := fun _ env rec => do
  let ncols := cols.length
  let more ← floats ((ncols : Int) - 4 - noptf) skipfirst
  let rec1 := rec ++ more
  let at' ← atHeader
  let rec2 ← if !at' then do
      let opt ← floats noptf skipfirst
      pure (rec1 ++ opt)
    else pure rec1
  pure (env, { row := nums (padCut ncols rec2) })

/-- parsers.py:568-570, 577-579: one HIERARCH record, its four values behind the header already
read -/
def hierarchRest (rec rec2 : List PyF) : Prog Emit := do
  let nsub ← intAt rec2 3
  let ihs ← floats nsub
  pure { row := nums (rec ++ rec2), adds := [[nums ihs]] }

/-- parsers.py:576-579: loop body of `hierarch_reader` -/
def hierarchBody : Body := fun _ env rec => do
  let rec2 ← floats 4
  let e ← hierarchRest rec rec2
  pure (env, e)

/-- parsers.py:617-636 `text_reader` -/
def textBody : Body := fun _ env rec => do
  let n ← intAt rec 2
  let ls ← (line .raw).times (rangeLen n)
  pure (env, { row := nums rec, adds := [[ls.map fun t => .sc (.txt t)]] })

/-- parsers.py:703-734 `td_reader` -/
def tdBody : Body := fun _ env rec => do
  let codnam ← intAt rec 2
  let codtxt ← intAt rec 3
  let names ← (line .name).times (rangeLen (floorDiv codnam 100))
  let texts ← (line .strip).times (rangeLen (floorDiv codtxt 100))
  pure (env, { row := nums rec ++ [.sc (.txt names.flatten)],
               adds := [[texts.map fun t => .sc (.txt t)]] })

/-- parsers.py:783-803 `gelmnt1_reader` -/
def gelmnt1Body : Body := fun _ env rec => do
  let eltyp ← intAt rec 2
  let elno ← intAt rec 1
  let env' := { env with elem := upd env.elem elno eltyp }
  let nnodes ← look elemNodes eltyp
  let nod ← floats nnodes 8
  pure (env', { row := nums rec, adds := [[nums nod]] })

/-- parsers.py:825-844 `gelmnt2_reader` -/
def gelmnt2Body : Body := fun _ env rec => do
  let t ← floats 12 8
  let one ← floats 1 8
  let nnod ← intAt one 0
  let nods ← floats nnod 8
  pure (env, { row := nums rec ++ [tup t, .sc (.int nnod)], adds := [[nums nods]] })

/-- parsers.py:894-916: `nnodes` values if the field is -1 -/
def gelref1Ref (nnodes : Int) (x : PyF) : Prog (List Val) :=
  if x.eqInt (-1) then do
    let v ← floats nnodes 8
    pure (nums v)
  else pure []

/-- parsers.py:875-923 `gelref1_reader` -/
def gelref1Body : Body := fun _ env rec => do
  let rec2 ← floatrec 8
  let rec3 ← floatrec 8
  let elno ← intAt rec 0
  let eltyp ← look env.elem elno
  let nnodes ← look elemNodes eltyp
  let x0 ← idx rec3 0
  let geo ← gelref1Ref nnodes x0
  let x1 ← idx rec3 1
  let fix ← gelref1Ref nnodes x1
  let x2 ← idx rec3 2
  let ecc ← gelref1Ref nnodes x2
  let x3 ← idx rec3 3
  let trans ← gelref1Ref nnodes x3
  pure (env, { row := nums (rec ++ rec2 ++ rec3), adds := [[geo], [fix], [ecc], [trans]] })

/-- parsers.py:1210-1228 `gsetmemb_reader` -/
def gsetmembBody : Body := fun _ env rec => do
  let more ← floats 1
  let rec' := rec ++ more
  let n ← intAt rec' 0
  let mem ← floats (n - 5)
  pure (env, { row := nums rec', adds := [[nums mem]] })

/-- parsers.py:1268-1311 `sconcept_reader` -/
def sconceptBody : Body := fun _ env rec => do
  let scontype ← intAt rec 2
  let more ← floats 1
  let rec1 := rec ++ more
  if scontype = 7 then do
    let rec2 ← floats 2
    let npart ← intAt rec2 0
    let njoin ← intAt rec2 1
    let parts ← floats npart
    let joins ← floats njoin
    pure (env, { row := nums (rec1 ++ rec2), adds := [[nums parts], [nums joins]] })
  else if scontype = 2 then
    pure (env, { row := nums (rec1 ++ [zero, zero]), adds := [[[]], [[]]] })
  else .fail .notImplemented

/-- parsers.py:1332-1354 `sconmesh_reader` -/
def sconmeshBody : Body := fun _ env rec => do
  let more ← floats 1
  let rec' := rec ++ more
  let nferep ← intAt rec' 4
  let reps ← floats nferep
  pure (env, { row := nums rec', adds := [[nums reps]] })

/-- parsers.py:1335-1337: `NUMREP` of the first record of a block -/
def sconmeshCheck (rec : List PyF) : Except Err Unit := do
  let x ← pyIdx rec 2
  let n ← x.toInt
  if n > 1 then .error .notImplemented else .ok ()

/-- parsers.py:1372-1392 `bnbcd_reader` -/
def bnbcdBody : Body := fun _ env rec => do
  let ndof ← intAt rec 1
  if ndof < 3 then
    pure (env, { row := nums (rec.take 2), adds := [[nums (pySliceI rec 2 (2 + ndof))]] })
  else do
    let more ← floats (ndof - 2) 8
    pure (env, { row := nums (rec.take 2), adds := [[nums (rec.drop 2 ++ more)]] })

/-- parsers.py:1413-1428 `bldep_reader` -/
def bldepBody : Body := fun _ env rec => do
  let ndep ← intAt rec 3
  let deps ← (floatrec 8).times (rangeLen ndep)
  pure (env, { row := nums rec, adds := [[deps.map fun d => tup (d.take 3)]] })

/-- parsers.py:1453-1477 `beuslo_reader` -/
def beusloBody : Body := fun _ env rec => do
  let more ← floatrec 8
  let rec' := rec ++ more
  let ndof ← intAt rec' 5
  let rload ← floats ndof 8
  let c ← idx rec' 2
  let iload ← if c.truthy then floats ndof 8 else pure []
  pure (env, { row := nums rec', adds := [[nums rload], [nums iload]] })

/-- parsers.py:1528-1546 `brigac_reader` -/
def brigacBody : Body := fun _ env rec => do
  let more ← floats 10 8
  let rec' := rec ++ more
  let c ← idx rec' 2
  let im ← if c.truthy then floats 6 8 else pure (List.replicate 6 zero)
  pure (env, { row := nums (rec' ++ im) })

/-- `(t[:4], t[4:8], t[8:12], t[12:])` -/
def mat4 (t : List PyF) : Val :=
  .mat [(t.take 4).map .num, (pySlice t 4 8).map .num, (pySlice t 8 12).map .num,
    (t.drop 12).map .num]

/-- parsers.py:1564-1582 `xsuptran_reader` (rows are appended through `table.row`, the buffer is
PyTables' own) -/
def xsuptranBody : Body := fun _ env rec => do
  let nfield ← intAt rec 0
  let itref ← intAt rec 1
  let more ← floats 14
  pure (env, { row := [.sc (.int nfield), .sc (.int itref), mat4 (rec.drop 2 ++ more)] })

/-- `'RV' + rec_name[2:]` -/
def rvName (name : String) : String := "RV" ++ String.ofList (name.toList.drop 2)

/-- parsers.py:1599-1620 `compdef_reader` -/
def compdefBody : Body := fun name env rec => do
  let lenrec ← intAt rec 2
  let ir ← intAt rec 1
  let env' := { env with lenrec := upd env.lenrec (rvName name, ir) lenrec }
  let more ← floats (lenrec - 1)
  pure (env', { row := nums (rec.take 3), adds := [[nums (rec.drop 3 ++ more)]] })

/-- parsers.py:1683-1685: one result point, `[]` if its number is not positive -/
def respoint : Prog (List Val) := do
  let ip ← floats 1
  let x ← idx ip 0
  if x.gtZero then do
    let r ← floats 3
    pure [tup (ip ++ r)]
  else pure []

/-- `(t[:3], t[3:6], t[6:])` -/
def mat3 (t : List PyF) : Val :=
  .mat [(t.take 3).map .num, (pySlice t 3 6).map .num, (t.drop 6).map .num]

/-- parsers.py:1695-1696 -/
def xform : Prog Val := do
  let t ← floats 9
  pure (mat3 t)

/-- parsers.py:1649-1706 `rdpoints_reader` -/
def rdpointsBody : Body := fun _ env rec => do
  let more ← floats 5
  let rec' := rec ++ more
  let ispalt ← intAt rec' 1
  let iielno ← intAt rec' 2
  let icoref ← intAt rec' 3
  let nsp ← intAt rec' 5
  let ijkdim ← intAt rec' 6
  let nsptra ← intAt rec' 7
  let nlay ← intAt rec' 8
  let nok := floorDiv ijkdim 10000
  let noj := floorDiv (ijkdim.fmod 10000) 100
  let noi := ijkdim.fmod 100
  let env' := { env with rdpoints := upd env.rdpoints icoref (nlay, nok, noj, noi),
                         nsp := upd env.nsp (ispalt, iielno) nsp }
  let pts ← respoint.times (rangeLen nok * rangeLen noj * rangeLen noi)
  let xfs ← xform.times (rangeLen nsptra)
  pure (env', { row := nums rec', adds := [[pts.flatten], [xfs]] })

/-- parsers.py:1744-1750: layer and plane data.  Without an entry of `rdpoints_data` and for an
unknown `icoref` the variables keep their values of the previous iteration (or are unbound). -/
def rdielcorGrid (env : Env) (icoref : Int) : Option (Int × Int × Int × Int) :=
  match env.rdpoints icoref with
  | some g => some g
  | none =>
    if icoref = 15 then some (0, 1, 1, 3)
    else if icoref = 24 then some (0, 2, 3, 3)
    else env.grid

/-- parsers.py:1728-1774 `rdielcor_reader` -/
def rdielcorBody : Body := fun _ env rec => do
  let icoref ← intAt rec 1
  match rdielcorGrid env icoref with
  | none => .fail .unboundLocal
  | some (nlay, nok, noj, noi) => do
    let gamma ←
      if nok = 1 then pure (rec.drop 3)
      else if nok > 1 then do
        let more ← floats (nok - 1)
        pure (rec.drop 3 ++ more)
      else pure []
    let beta ← floats noj
    let alpha ← floats noi
    let lay ← (floats 2).times (rangeLen nlay)
    pure ({ env with grid := some (nlay, nok, noj, noi) },
      { row := nums (rec.take 3),
        adds := [[nums gamma], [nums beta], [nums alpha], [lay.map tup]] })

/-- parsers.py:1798-1825 `rdresref_reader` -/
def rdresrefBody : Body := fun _ env rec => do
  let more ← floats 3
  let rec' := rec ++ more
  let ires ← intAt rec' 1
  let icompl ← intAt rec' 5
  let numtyp ← intAt rec' 6
  let env' := { env with rdresref := upd env.rdresref ires icompl }
  let r ← (floats 3).times (rangeLen numtyp)
  pure (env', { row := nums rec', adds := [[r.map tup]] })

/-- parsers.py:1848-1865 `rxxxxcmb_reader`; also `wbodcon_reader` (parsers.py:1997-2013): `rec[3]`
groups of three values -/
def triplesBody : Body := fun _ env rec => do
  let n ← intAt rec 3
  let r ← (floats 3).times (rangeLen n)
  pure (env, { row := nums rec, adds := [[r.map tup]] })

/-- parsers.py:1895-1916 `rvnodres_reader` -/
def rvnodresBody : Body := fun _ env rec => do
  let more ← floats 1
  let rec' := rec ++ more
  let nfield ← intAt rec' 0
  let ires ← intAt rec' 1
  let icompl ← look env.rdresref ires
  if icompl + 1 = 0 then .fail .zeroDivision
  else do
    let res ← floats (floorDiv (nfield - 5) (icompl + 1))
    pure (env, { row := nums rec', adds := [[nums res]] })

/-- parsers.py:1950-1976 `rvelmres_reader` -/
def rvelmresBody : Body := fun name env rec => do
  let more ← floats 1
  let rec' := rec ++ more
  let ires ← intAt rec' 1
  let iielno ← intAt rec' 2
  let ispalt ← intAt rec' 3
  let ir ← intAt rec' 4
  let nsp ← look env.nsp (ispalt, iielno)
  let lenrec ← look env.lenrec (name, ir)
  let icompl ← look env.rdresref ires
  let res ← floats (nsp * lenrec * (icompl + 1))
  pure (env, { row := nums rec', adds := [[nums res]] })

/-- parsers.py:2044-2047: one reference type with its pairs of values -/
def wdresrefType (rec : List PyF) : Prog (Int × List Val) := do
  let one ← floats 1
  let irefty ← intAt one 0
  let n ← intAt rec 2
  let dat ← (floats 2).times (rangeLen n)
  pure (irefty, dat.map tup)

/-- parsers.py:2048-2053: the calls of `vldata.add` for one kind of reference (`irefty`) -/
def wdresrefAdds (k : Int) (l : List (Int × List Val)) : List (List Val) :=
  (l.filter fun p => p.1 = k).map Prod.snd

/-- parsers.py:2035-2058 `wdresref_reader` -/
def wdresrefBody : Body := fun _ env rec => do
  let m ← intAt rec 3
  let l ← (wdresrefType rec).times (rangeLen m)
  pure (env, { row := nums rec,
               adds := [wdresrefAdds 1 l, wdresrefAdds 2 l, wdresrefAdds 3 l] })

/-- parsers.py:2076-2089 `wglobdef_reader` -/
def wglobdefBody : Body := fun _ env rec => do
  let d ← intAt rec 3
  let more ← if d ≠ 0 then floats 1 else pure [.ofInt 1]
  pure (env, { row := nums (rec ++ more) })

/-- parsers.py:2118-2129 `wbody_reader` -/
def wbodyBody : Body := fun _ env rec => do
  let more ← floats 12
  let t ← floats 16
  pure (env, { row := nums (rec ++ more) ++ [mat4 t] })

/-- `(t[:6], t[6:12], t[12:18], t[18:24], t[24:30], t[30:])` -/
def mat6 (t : List PyF) : Val :=
  .mat [(t.take 6).map .num, (pySlice t 6 12).map .num, (pySlice t 12 18).map .num,
    (pySlice t 18 24).map .num, (pySlice t 24 30).map .num, (t.drop 30).map .num]

/-- parsers.py:2148-2159 `w1matrix_reader` -/
def w1matrixBody : Body := fun _ env rec => do
  let more ← floats 2
  let t ← floats 36
  pure (env, { row := nums (rec ++ more) ++ [mat6 t] })

/-- parsers.py:2184-2188 and 2221-2225: six complex or real values -/
def sixValues (icompl : Int) : Prog Val :=
  if icompl ≠ 0 then do
    let f ← floats 12
    pure (.vec (complexes f))
  else do
    let f ← floats 6
    pure (tup f)

/-- parsers.py:2177-2193 `wcommon1_reader` -/
def wcommonBody : Body := fun _ env rec => do
  let c ← intAt rec 3
  let v ← sixValues c
  pure (env, { row := nums rec ++ [v] })

/-- parsers.py:2214-2230 `W1SFORCE_reader` -/
def w1sforceBody : Body := fun _ env rec => do
  let more ← floats 1
  let rec' := rec ++ more
  let c ← intAt rec' 4
  let v ← sixValues c
  pure (env, { row := nums rec' ++ [v] })

/-- parsers.py:2247-2255 `W2HDRIFT_reader` (`n = 2`) and 2272-2280 `W2MDRIFT_reader` (`n = 5`) -/
def driftBody (n : Nat) : Body := fun _ env rec => do
  let more ← floats n
  pure (env, { row := nums (rec.take 3) ++ [tup (rec.drop 3 ++ more)] })

/-- parsers.py:2299-2308 `WFKPOINT_reader` -/
def wfkpointBody : Body := fun _ env rec => do
  let more ← floats 1
  pure (env, { row := nums (rec.take 2) ++ [tup (rec.drop 2 ++ more)] })

/-- parsers.py:2327-2344 `WFLUIDKN_reader` -/
def wfluidknBody : Body := fun _ env rec => do
  let c ← intAt rec 3
  if c ≠ 0 then do
    let f ← floats 2
    let a ← idx f 0
    let b ← idx f 1
    let g ← floats 6
    pure (env, { row := nums rec ++ [.sc (.cpx a b), .vec (complexes g)] })
  else do
    let f ← floats 1
    let g ← floats 3
    pure (env, { row := nums (rec ++ f) ++ [tup g] })

/-- parsers.py:2370-2379 `WSECTION_reader` -/
def wsectionBody : Body := fun _ env rec => do
  let more ← floats 10
  let rec' := rec ++ more
  pure (env, { row := nums (rec'.take 5) ++
    [tup (pySlice rec' 5 8), tup (pySlice rec' 8 11), tup (pySlice rec' 11 14)] })

/-- `next(fl_it)` -/
def nextFloat : List PyF → Except Err (PyF × List PyF)
  | [] => .error .stopIteration
  | x :: r => .ok (x, r)

/-- parsers.py:2418-2425: the components of one node -/
def zelevComps (cplx : Bool) : List PyF → List PyF → Except Err (List Sc)
  | [], _ => .ok []
  | comp :: comps, it => do
    if comp.truthy then
      let (x, it1) ← nextFloat it
      if cplx then
        let (y, it2) ← nextFloat it1
        let r ← zelevComps cplx comps it2
        .ok (.cpx x y :: r)
      else
        let r ← zelevComps cplx comps it1
        .ok (.num x :: r)
    else
      let r ← zelevComps cplx comps it
      .ok (.num zero :: r)

/-- parsers.py:2416-2426: the entry of one node -/
def zelevRec (cplx : Bool) (comps : List PyF) (chunk : List PyF) : Except Err Val := do
  let (x, it) ← nextFloat chunk
  let r ← zelevComps cplx comps it
  .ok (.vec (.num x :: r))

/-- `range(0, tot, per)` for `per ≠ 0` -/
def steps (tot per : Int) : List Int :=
  let n := if per > 0 then (tot.toNat + per.toNat - 1) / per.toNat
    else ((-tot).toNat + (-per).toNat - 1) / (-per).toNat
  (List.range n).map fun (i : Nat) => (i : Int) * per

/-- parsers.py:2401-2432 `WSURFACE_reader` -/
def wsurfaceBody : Body := fun _ env rec => do
  let more ← floats 4
  let rec' := rec ++ more
  let n ← intAt rec' 0
  let tot := n - 8
  let x5 ← idx rec' 5
  let x6 ← idx rec' 6
  let x7 ← idx rec' 7
  let nc ← int ((x5.add x6).add x7)
  let x4 ← idx rec' 4
  let ic ← int x4
  let per := 1 + nc * (1 + ic)
  let all ← floats tot
  if per = 0 then .fail .valueError
  else do
    let z ← Prog.lift ((steps tot per).mapM fun s =>
      zelevRec x4.truthy (rec'.drop 5) (pySliceI all s (s + per)))
    pure (env, { row := nums rec', adds := [[z]] })

/-- parsers.py:2447-2456 `WINPUT_reader` -/
def winputBody : Body := fun _ env rec => do
  let more ← floats 14
  pure (env, { row := nums (rec.take 2) ++ [mat4 (rec.drop 2 ++ more)] })

/-- parsers.py:2476-2496 `W1PANPRE_reader` -/
def w1panpreBody : Body := fun _ env rec => do
  let f ← floats 2
  let x ← idx f 1
  let c ← int x
  let p ← if c ≠ 0 then do
      let g ← floats 2
      let a ← idx g 0
      let b ← idx g 1
      pure (Val.sc (.cpx a b))
    else do
      let g ← floats 1
      let a ← idx g 0
      pure (Val.sc (.cpx a zero))
  let h ← floats 2
  pure (env, { row := nums (rec ++ f) ++ [p] ++ nums h })

/-! ### the dict `readers` -/

/-- how a record type is read: by a loop over all consecutive records of the type, or by one of
the special readers -/
inductive Rd where
  | block (check : List PyF → Except Err Unit) (body : Body)
  | hierarch
  | ident
  | irecsize
  | iend

/-- no check in front of the loop -/
def noCheck (_ : List PyF) : Except Err Unit := .ok ()

/-- a reader made by `standard_record_reader` -/
def standard (name : String) (skipfirst : Nat) : Option Rd :=
  (descriptor name).map fun cols => .block noCheck (standardBody cols skipfirst)

/-- a reader made by `reader_optionalfields` -/
def optional (name : String) (noptf : Nat) : Option Rd :=
  (descriptor name).map fun cols => .block noCheck (optionalBody cols 8 noptf)

/-- the dict `readers` (assignments `readers[...] = ...` throughout parsers.py) -/
def readers (name : String) : Option Rd :=
  if name ∈ tdNames then some (.block noCheck tdBody)   -- 736-737
  else if name ∈ compdefNames then some (.block noCheck compdefBody)   -- 1622-1625
  else if name ∈ wcommonNames then some (.block noCheck wcommonBody)   -- 2195-2197
  else match name with
  | "IRECSIZE" => some .irecsize   -- 529
  | "HIERARCH" => some .hierarch   -- 598
  | "DATE" | "TEXT" => some (.block noCheck textBody)   -- 638-639
  | "IDENT" => some .ident   -- 669
  | "IEND" => some .iend   -- 681
  | "GNODE" => standard "GNODE" 0   -- 752
  | "GCOORD" => standard "GCOORD" 0   -- 766
  | "GELMNT1" => some (.block noCheck gelmnt1Body)   -- 806
  | "GELMNT2" => some (.block noCheck gelmnt2Body)   -- 847
  | "GELREF1" => some (.block noCheck gelref1Body)   -- 925
  | "GECCEN" => standard "GECCEN" 0   -- 937
  | "GUNIVEC" => standard "GUNIVEC" 0   -- 949
  | "GELTH" => standard "GELTH" 0   -- 960
  | "GBEAMG" => standard "GBEAMG" 8   -- 984
  | "GBARM" => optional "GBARM" 2   -- 1000
  | "GBOX" => optional "GBOX" 2   -- 1018
  | "GCHAN" => optional "GCHAN" 2   -- 1037
  | "GCHANR" => optional "GCHANR" 2   -- 1057
  | "GDOBO" => optional "GDOBO" 2   -- 1075
  | "GIORH" => optional "GIORH" 3   -- 1095
  | "GIORHR" => optional "GIORHR" 3   -- 1117
  | "GLSEC" => optional "GLSEC" 2   -- 1135
  | "GLSECR" => optional "GLSECR" 2   -- 1154
  | "GPIPE" => optional "GPIPE" 2   -- 1170
  | "GUSYI" => optional "GUSYI" 2   -- 1192
  | "GSETMEMB" => some (.block noCheck gsetmembBody)   -- 1230
  | "MISOSEL" => standard "MISOSEL" 8   -- 1247-1248
  | "SCONCEPT" => some (.block noCheck sconceptBody)   -- 1313
  | "SCONMESH" => some (.block sconmeshCheck sconmeshBody)   -- 1357
  | "BNBCD" => some (.block noCheck bnbcdBody)   -- 1395
  | "BLDEP" => some (.block noCheck bldepBody)   -- 1431
  | "BEUSLO" => some (.block noCheck beusloBody)   -- 1479
  | "BGRAV" => standard "BGRAV" 8   -- 1496-1497
  | "BRIGAC" => some (.block noCheck brigacBody)   -- 1548
  | "RSUPTRAN" | "HSUPTRAN" => some (.block noCheck xsuptranBody)   -- 1585-1586
  | "RDPOINTS" => some (.block noCheck rdpointsBody)   -- 1708
  | "RDIELCOR" => some (.block noCheck rdielcorBody)   -- 1777
  | "RDRESREF" => some (.block noCheck rdresrefBody)   -- 1828
  | "RBLODCMB" | "RDRESCMB" => some (.block noCheck triplesBody)   -- 1868-1869
  | "RVNODACC" | "RVNODDIS" | "RVNODVEL" => some (.block noCheck rvnodresBody)   -- 1918-1920
  | "RVFORCES" | "RVSTRAIN" | "RVSTRESS" => some (.block noCheck rvelmresBody)   -- 1978-1980
  | "WBODCON" => some (.block noCheck triplesBody)   -- 2016
  | "WDRESREF" => some (.block noCheck wdresrefBody)   -- 2060
  | "WGLOBDEF" => some (.block noCheck wglobdefBody)   -- 2091
  | "WBODY" => some (.block noCheck wbodyBody)   -- 2131
  | "W1MATRIX" => some (.block noCheck w1matrixBody)   -- 2161
  | "W1SFORCE" => some (.block noCheck w1sforceBody)   -- 2232
  | "W2HDRIFT" => some (.block noCheck (driftBody 2))   -- 2257
  | "W2MDRIFT" => some (.block noCheck (driftBody 5))   -- 2282
  | "WFKPOINT" => some (.block noCheck wfkpointBody)   -- 2310
  | "WFLUIDKN" => some (.block noCheck wfluidknBody)   -- 2346
  | "WSECTION" => some (.block noCheck wsectionBody)   -- 2381
  | "WSURFACE" => some (.block noCheck wsurfaceBody)   -- 2434
  | "WINPUT" => some (.block noCheck winputBody)   -- 2458
  | "W1PANPRE" => some (.block noCheck w1panpreBody)   -- 2499
  | _ => none

/-- all keys of `readers` -/
def readableNames : List String :=
  tdNames ++ compdefNames ++ wcommonNames ++
  ["IRECSIZE", "HIERARCH", "DATE", "TEXT", "IDENT", "IEND", "GNODE", "GCOORD", "GELMNT1",
   "GELMNT2", "GELREF1", "GECCEN", "GUNIVEC", "GELTH", "GBEAMG", "GBARM", "GBOX", "GCHAN",
   "GCHANR", "GDOBO", "GIORH", "GIORHR", "GLSEC", "GLSECR", "GPIPE", "GUSYI", "GSETMEMB",
   "MISOSEL", "SCONCEPT", "SCONMESH", "BNBCD", "BLDEP", "BEUSLO", "BGRAV", "BRIGAC", "RSUPTRAN",
   "HSUPTRAN", "RDPOINTS", "RDIELCOR", "RDRESREF", "RBLODCMB", "RDRESCMB", "RVNODACC",
   "RVNODDIS", "RVNODVEL", "RVFORCES", "RVSTRAIN", "RVSTRESS", "WBODCON", "WDRESREF", "WGLOBDEF",
   "WBODY", "W1MATRIX", "W1SFORCE", "W2HDRIFT", "W2MDRIFT", "WFKPOINT", "WFLUIDKN", "WSECTION",
   "WSURFACE", "WINPUT", "W1PANPRE"]

end Verif.Parse
