import Verif.Session.Model
import Verif.Conv.Spec
/-!
# What opening a file gives (specification)
-/

namespace Verif.Session
open Verif Verif.Seq Verif.Parse Verif.Conv Verif.Data Verif.Data.Life Verif.Data.Load

/-- `ns` lists the groups of an HDF5 file and their subgroups, in any order; names of HDF5 groups
have no slash -/
structure Enumerates (h : H5) (ns : List (String × List String)) : Prop where
  groups : ∀ n, n ∈ ns.map Prod.fst ↔ ∃ a, h.groups [n] = some a
  nodup : (ns.map Prod.fst).Nodup
  subs : ∀ p ∈ ns, p.2.Nodup ∧ ∀ m, m ∈ p.2 ↔ ∃ a, h.groups [p.1, m] = some a
  slash : ∀ p ∈ ns, '/' ∉ p.1.toList ∧ ∀ m ∈ p.2, '/' ∉ m.toList

/-- File `g` is open, on HDF5 file `o` -/
def HasOrigin (s : State) (g : Nat) (o : Origin) : Prop :=
  ∃ l k h, s.life.files[g]? = some (.opened l k) ∧ s.store[k]? = some (o, h)

section
variable {K V : Type} [Field K] [LinearOrder K] (pi : K) (num : PyF → K) (cplx : PyF → PyF → V)

/-- the class of the object for a group, by its attributes; a hydrodynamic group needs the records
that the constructor reads -/
inductive ClassAt (h : H5) (n : String) : Cls → Prop
  | top {a} : h.groups [n] = some a → a.datatype = some "STRUCTURAL" → a.level = some "TOPLEVEL" →
      ClassAt h n .top
  | first {a} : h.groups [n] = some a → a.datatype = some "STRUCTURAL" →
      a.level = some "FIRSTLEVEL" → ClassAt h n .first
  | hydro {a lev t o} : h.groups [n] = some a → a.datatype = some "HYDRODYNAMIC" →
      a.level = some lev → loadHydro num cplx h [n] = .ok t → Data.hydroInit pi t = .ok o →
      ClassAt h n .hydro

/-- the class of the object for a subgroup -/
inductive SubAt (h : H5) (n m : String) : Cls → Prop
  | inter {a b} : h.groups [n] = some a → h.groups [n, m] = some b → b.level = some "INTERLEVEL" →
      SubAt h n m .inter
  | first {a b} : h.groups [n] = some a → h.groups [n, m] = some b → b.level = some "FIRSTLEVEL" →
      SubAt h n m .first

/-- every group has a class and every subgroup a level -/
structure Proper (h : H5) : Prop where
  groups : ∀ n a, h.groups [n] = some a → ∃ c, ClassAt pi num cplx h n c
  subs : ∀ n m a, h.groups [n, m] = some a → ∃ l, a.level = some l

/-- data object `d`: open, of class `c`, with attribute `file` leading to File `f`, reading group
`p` of `h` -/
structure IsObject (s : State) (f : Nat) (d : Nat) (c : Cls) (h : H5) (p : Path) : Prop where
  isOpen : ∃ key o, s.life.datas[d]? = some (.opened c key o) ∧
    (o = .file f ∨ ∃ d' c' key', o = .data d' ∧
      s.life.datas[d']? = some (.opened c' key' (.file f)))
  group : groupOf s d = .ok (h, p)

/-- File `f` holds exactly the objects of the groups of `h` -/
structure HoldsFile (s : State) (f : Nat) (h : H5) : Prop where
  top : ∀ n c, ClassAt pi num cplx h n c → ∃ d, getItem s.life f n = .ok d ∧ IsObject s f d c h [n]
  sub : ∀ n m c, SubAt h n m c → ∃ d, getItem s.life f (n ++ "/" ++ m) = .ok d ∧
    IsObject s f d c h [n, m]
  only : ∀ key, (∀ n c, ClassAt pi num cplx h n c → key ≠ n) →
    (∀ n m c, SubAt h n m c → key ≠ n ++ "/" ++ m) → getItem s.life f key = .error .keyError
  keys : ∃ ks, Life.keys s.life f = .ok ks ∧ ks.Nodup

end

/-- what is in the output file after the lower level files of the hierarchy (if there is one) of a
file with records `outs`: `n` is the group of the file, `t` its superelement type, `h1` the output
file before -/
inductive WithLower (D : Dec) (disk : Str → Option Bytes) (dir fp : Str) (l : Char) (ext pre : Str)
    (formatted : Bool) (t : Int) (n : String) (outs : List Added) (h1 : H5) : H5 → List Str → Prop
  | alone : ofType "HIERARCH" outs = [] →
      WithLower D disk dir fp l ext pre formatted t n outs h1 h1 []
  | lower {tab h2 ms} : ofType "HIERARCH" outs ≠ [] → h1.tabs ([n], "HIERARCH") = some tab →
      LowerFiles D none disk dir fp ext formatted (String.ofList pre) (String.ofList [l]) t [n]
        tab.rows tab.rows.tail h1 h2 ms →
      WithLower D disk dir fp l ext pre formatted t n outs h1 h2 ms

/-- The SESAM file `filename` in the file system of `w`: in directory `dir`, with name `fname` and
bytes `b`; `fp`, `l`, `no`, `ext` are the parts of its name, `f` is the list of its records, `names`
the types of the records read, `t` its superelement type.  Converted with group name prefix `pre`
into an HDF5 file with contents `h0`, it goes to group `n`, with level `lev` and data type `dt`, and
gives `h1`; with the lower level files the contents are `h2`; `ms` are the messages. -/
structure SesamFile (D : Dec) (w : Conv.World) (filename dir fname fp : Str) (l : Char)
    (no ext : Str) (b : Bytes) (pre : Str) (f : List LRec) (names : List String) (t : Int)
    (n lev dt : String) (h0 h1 h2 : H5) (ms : List Str) : Prop where
  path : PathOf (w.fullPath filename) dir fname
  parts : SesamName fname fp l no ext
  notSin : ext.getLast? ≠ some 'n' ∧ ext.getLast? ≠ some 'N'
  bytes : w.disk (w.fullPath filename) = some b
  group : n = String.ofList pre ++ String.ofList [l] ++ toString t
  records : ∃ sk outs ix, Encoded D sk f (sourceOf (b.head? != some 75) b) ∧
    Job none sk (fun _ => none) f outs names (.top (String.ofList pre) (String.ofList [l])) t h0
      lev dt ix ∧
    Converted outs names (.top (String.ofList pre) (String.ofList [l])) t h0 lev dt ix h1 ∧
    WithLower D w.disk dir fp l ext pre (b.head? != some 75) t n outs h1 h2 ms

/-- LEVEL of the group of a lower level file with letter `l` and row `hrec` of the hierarchy: all
results files count as first level, model and load files of superelements of level 1 too -/
inductive LowLevel (l : Char) (hrec : List Cell) : String → Prop
  | results : l = 'R' → LowLevel l hrec "FIRSTLEVEL"
  | inter {n : Int} : l ≠ 'R' → HasField hrec 4 n → 1 < n → LowLevel l hrec "INTERLEVEL"
  | first {n : Int} : l ≠ 'R' → HasField hrec 4 n → n ≤ 1 → LowLevel l hrec "FIRSTLEVEL"

/-- the group of a lower level file: letter, superelement type, and the index of the superelement if
there is one and it is not 0 -/
inductive SubName (l : Char) (t : Int) : Option Int → String → Prop
  | none : SubName l t none (String.ofList [l] ++ toString t)
  | zero : SubName l t (some 0) (String.ofList [l] ++ toString t)
  | index {i : Int} : i ≠ 0 →
      SubName l t (some i) (String.ofList [l] ++ toString t ++ "_" ++ toString i)

end Verif.Session
