import Verif.Parse.Convert
/-!
# What a conversion leaves behind when it raises

An exception in `parse_file` ends the conversion, but what was written to the output file before
stays there, and so do the element types in `elem_data` (everything else in the module is reset by
the next call of `sif2hdf5`).  The functions below follow the readers up to the point where they
raise; they are meant for runs that raise, on others their value has no meaning.
-/

namespace Verif.Parse
open Verif Verif.Seq

/-- the output file and `elem_data` -/
structure Left where
  h5 : H5
  elem : Int → Option Int

/-- nothing was written or declared since `st` -/
def St.left (st : St) : Left := ⟨st.h5, st.env.elem⟩

/-- `for vl in self.vldata: vl.write()` raises: the arrays before the one that raises are written
(parsers.py:186-187, 194-195) -/
def writeVlsLeft : List Vl → List Arr → List Arr
  | v :: vs, a :: as =>
    match v.write a with
    | .error _ => a :: as
    | .ok (_, a') => a' :: writeVlsLeft vs as
  | _, as => as

/-- parsers.py:190-195 `recdata.write` raises: the rows are written first -/
def Work.writeLeft (w : Work) : Tab :=
  { w.tab with rows := w.tab.rows ++ w.recs, arrs := writeVlsLeft w.vls w.tab.arrs }

/-- parsers.py:178-188 `recdata.add` raises: when the row is stored in the buffer, or when the full
buffer is written -/
def Work.addLeft (e : Emit) (w : Work) : Tab :=
  let vls := addVls w.vls e.adds
  match storeRow w.tab.cols (e.row ++ bounds vls) with
  | .error _ => w.tab
  | .ok cells => { w with recs := w.recs ++ [cells], vls := vls : Work }.writeLeft

/-- the body of a loop raises: only the reader of GELMNT1 sets `elem_data`
(parsers.py:793, `eltyp = elem_data[int(rec[1])] = int(rec[2])`) -/
def bodyLeft (name : String) (rec : List PyF) (elem : Int → Option Int) : Int → Option Int :=
  if name = "GELMNT1" then
    match rec with
    | _ :: b :: c :: _ =>
      match c.toInt, b.toInt with
      | .ok t, .ok n => upd elem n t
      | _, _ => elem
    | _ => elem
  else elem

section
variable {σ : Type} (R : Reader σ)

/-- a loop raises (see `loop`), or the `recs.write()` behind it: the table in the output file, and
`elem_data` -/
def loopLeft (B : Nat) (body : Body) (name : String) :
    Nat → Work → Env → String × List PyF → σ → Tab × (Int → Option Int)
  | 0, w, env, _, _ => (w.tab, env.elem)
  | fuel + 1, w, env, h, s =>
    if h.1 = name then
      match Prog.run R (body name env h.2) s with
      | .error _ => (w.tab, bodyLeft name h.2 env.elem)
      | .ok (r, s') =>
        match w.add B r.2 with
        | .error _ => (w.addLeft r.2, r.1.elem)
        | .ok w' =>
          match Prog.run R header s' with
          | .error _ => (w'.tab, r.1.elem)
          | .ok (h', s'') => loopLeft B body name fuel w' r.1 h' s''
    else (w.writeLeft, env.elem)

/-- a reader made of `get_table`, the loop and `recs.write()` raises (see `blockReader`) -/
def blockLeft (B fuel : Nat) (check : List PyF → Except Err Unit) (body : Body) (st : St)
    (h : String × List PyF) (s : σ) : Left :=
  match check h.2 with
  | .error _ => st.left
  | .ok _ =>
    match getTable h.1 st with
    | .error _ => st.left
    | .ok a =>
      let r := loopLeft R B body h.1 fuel (Work.open a.2.2) { a.1.env with grid := none } h s
      ⟨a.1.h5.put a.2.1 h.1 r.1, r.2⟩

/-- parsers.py:550-596 `hierarch_reader` raises -/
def hierarchLeft (B fuel : Nat) (st : St) (h : String × List PyF) (s : σ) : Left :=
  match Prog.run R (Prog.bind (floats 4) fun rec2 =>
      Prog.bind (intAt h.2 2) fun n => .ret (rec2, n)) s with
  | .error _ => st.left
  | .ok ((rec2, seltyp), s1) =>
    match getTable h.1 { st with g := { st.g with currentSeltyp := some seltyp } } with
    | .error _ => st.left
    | .ok a =>
      let w0 := Work.open a.2.2
      let t : Tab :=
        match Prog.run R (hierarchRest h.2 rec2) s1 with
        | .error _ => w0.tab
        | .ok (e, s2) =>
          match w0.add B e with
          | .error _ => w0.addLeft e
          | .ok w1 =>
            match Prog.run R header s2 with
            | .error _ => w1.tab
            | .ok (h1, s3) => (loopLeft R B hierarchBody "HIERARCH" fuel w1 a.1.env h1 s3).1
      ⟨a.1.h5.put a.2.1 h.1 t, st.env.elem⟩

/-- parsers.py:652-667 `ident_reader` raises: before the table is made, before the row is appended,
or when the next header is read -/
def identLeft (st : St) (h : String × List PyF) (s : σ) : Left :=
  match Prog.run R (if isTrue st.g.currentSeltyp then .ret st
     else Prog.bind (intAt h.2 1) fun n =>
       .ret { st with g := { st.g with currentSeltyp := some n } }) s with
  | .error _ => st.left
  | .ok (st0, _) =>
    match getTable h.1 st0 with
    | .error _ => st.left
    | .ok a =>
      match Prog.run R (Prog.bind (intAt h.2 0) fun x => Prog.bind (intAt h.2 1) fun y =>
          Prog.bind (intAt h.2 2) fun z => .ret (x, y, z)) s with
      | .error _ => ⟨a.1.h5, st.env.elem⟩
      | .ok ((x, y, z), _) =>
        ⟨a.1.h5.put a.2.1 h.1 { a.2.2 with
          rows := a.2.2.rows ++ [[.sc (.int x), .sc (.int y), .sc (.int z)]] }, st.env.elem⟩

/-- a reader raises; the readers of IRECSIZE and IEND write nothing -/
def readerLeft (B fuel : Nat) (rd : Rd) (st : St) (h : String × List PyF) (s : σ) : Left :=
  match rd with
  | .block check body => blockLeft R B fuel check body st h s
  | .hierarch => hierarchLeft R B fuel st h s
  | .ident => identLeft R st h s
  | .irecsize => st.left
  | .iend => st.left

/-- parsers.py:416-443 `general_parser` raises -/
def generalLeft (B fuel : Nat) (st : St) (h : String × List PyF) (s : σ) : Left :=
  match h.2 with
  | [] => st.left
  | x :: _ =>
    if x.ltZero then st.left
    else
      match readers h.1 with
      | some rd =>
        readerLeft R B fuel rd
          { st with g := { st.g with recordNames := st.g.recordNames ++ [h.1] } } h s
      | none => st.left

/-- parsers.py:450-461 the loops of `parse_file` raise -/
def parseLoopLeft (B : Nat) (only : Option (List String)) :
    Nat → Nat → St → Option (String × List PyF) → σ → Left
  | _, 0, st, _, _ => st.left
  | _, _ + 1, st, none, _ => st.left
  | fuel, n + 1, st, some h, s =>
    if h.1 = "" then st.left
    else
      if selected only h.1 then
        match Prog.run R (generalParser B fuel st h) s with
        | .error _ => generalLeft R B fuel st h s
        | .ok (r, s') => parseLoopLeft B only fuel n r.1 r.2 s'
      else
        match Prog.run R (skipLoop h.1 fuel h) s with
        | .error _ => st.left
        | .ok (h', s') => parseLoopLeft B only fuel n st (some h') s'

/-- parsers.py:463-515 raise: if LEVEL cannot be determined, RECORDS is set already -/
def attributesLeft (st : St) : Left :=
  match getPath st with
  | .error _ => st.left
  | .ok p =>
    match st.h5.groups p with
    | none => st.left
    | some a =>
      match classify st with
      | .error _ =>
        ⟨{ st.h5 with groups := fun q =>
            if q = p then some { a with records := some (removeDups [] st.g.recordNames) }
            else st.h5.groups q }, st.env.elem⟩
      | .ok _ => st.left

/-- parsers.py:446-515 `parse_file` raises -/
def fileLeft (B fuel : Nat) (only : Option (List String)) (st : St) (s : σ) : Left :=
  match Prog.run R header s with
  | .error _ => st.left
  | .ok (h, s1) =>
    match Prog.run R (parseLoop B only fuel fuel st (some h)) s1 with
    | .error _ => parseLoopLeft R B only fuel fuel st (some h) s1
    | .ok (st', _) => attributesLeft st'

end

/-- `parse_file` on a file of either kind raises -/
def sourceLeft (D : Dec) (B : Nat) (only : Option (List String)) (st : St) : Source → Left
  | .unformatted b => fileLeft (U.reader D) B (b.length + 2) only st (U.openFile b)
  | .formatted t => fileLeft (T.reader D) B (t.length + 2) only st (T.openFile t)

end Verif.Parse
