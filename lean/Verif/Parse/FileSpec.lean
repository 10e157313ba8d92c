import Verif.Parse.Spec
/-!
# What a conversion does to the output file (specification, continued)

The group of a converted file, its attributes, and the state of the output file afterwards.
-/

namespace Verif.Parse
open Verif Verif.Seq

/-- Where the data of a file go: at the top (a file opened by the user), or below the group of
another superelement (a file found through the hierarchy `hp`/HIERARCH of that superelement).
`pre` is the group name prefix, `ft` the file letter, `topSel` the superelement type at the top,
`index` the index of the superelement (results files), `hrec` its row in the hierarchy. -/
inductive Place where
  | top (pre ft : String)
  | low (pre ft : String) (topSel : Int) (index : Option Int) (hp : Path) (hrec : List Cell)

/-- the file letter -/
def Place.letter : Place → String
  | .top _ ft => ft
  | .low _ ft _ _ _ _ => ft

/-- the group for superelement type `s` -/
def Place.path (pl : Place) (s : Int) : Path :=
  match pl with
  | .top pre ft => [pre ++ ft ++ toString s]
  | .low pre ft topSel index _ _ =>
    [pre ++ ft ++ toString topSel,
      match index with
      | none => ft ++ toString s
      | some 0 => ft ++ toString s
      | some i => ft ++ toString s ++ "_" ++ toString i]

/-- integer field of a row -/
def HasField (row : List Cell) (i : Nat) (n : Int) : Prop := row[i]? = some (.sc (.int n))

/-- the first record with a table gives the superelement type -/
def GivesType (s : Int) (outs : List Added) : Prop :=
  ∃ o, outs.head? = some o ∧
    (o.name = "IDENT" ∧ HasField o.cells 1 s ∨ o.name = "HIERARCH" ∧ HasField o.cells 2 s)

/-- hierarchies on the file: at the top they start with the superelement itself, below there are
none -/
def Place.Allows (pl : Place) (s : Int) (outs : List Added) : Prop :=
  match pl with
  | .top _ _ => ∀ o ∈ outs, o.name = "HIERARCH" → o.first = true → HasField o.cells 2 s
  | .low _ _ _ _ _ _ => ∀ o ∈ outs, o.name ≠ "HIERARCH"

/-- the hierarchy a lower file refers to is in the output file -/
def Place.In (pl : Place) (h0 : H5) : Prop :=
  match pl with
  | .top _ _ => True
  | .low _ _ topSel _ hp _ => hp.length = 1 ∧ ∃ t row rows,
      h0.tabs (hp, "HIERARCH") = some t ∧ t.rows = row :: rows ∧ HasField row 2 topSel

/-- the records of a type -/
def ofType (name : String) (outs : List Added) : List Added := outs.filter fun o => o.name = name

/-- the tables after the conversion: the tables of group `p` hold the records of the file, the
tables of other groups are as before -/
def TablesAfter (h0 : H5) (p : Path) (outs : List Added) (h : H5) : Prop :=
  (∀ l ∈ layouts, ofType l.name outs ≠ [] → h.tabs (p, l.name) = some ((contents l outs).table l)) ∧
  (∀ k : Path × String, k.1 ≠ p ∨ ofType k.2 outs = [] → h.tabs k = h0.tabs k)

/-- each of `names` once, in order of first appearance -/
def Once (names recs : List String) : Prop :=
  (∀ n, n ∈ recs ↔ n ∈ names) ∧ recs.Pairwise fun a b => names.idxOf a < names.idxOf b

/-- the first row of the hierarchy of the file -/
def HeadLevel (outs : List Added) (lev : Int) : Prop :=
  ∃ o, (ofType "HIERARCH" outs).head? = some o ∧ HasField o.cells 4 lev

/-- LEVEL, DATATYPE and INDEX (`none`: not set) of the group of a file -/
inductive Classified (outs : List Added) : Place → String → String → Option (Option Int) → Prop
  /-- results file at the top of a hierarchy of level 1 -/
  | resOne {pre} : HeadLevel outs 1 →
      Classified outs (.top pre "R") "FIRSTLEVEL" "STRUCTURAL" (some none)
  /-- results file at the top of a hierarchy of another level -/
  | resTop {pre lev} : HeadLevel outs lev → lev ≠ 1 →
      Classified outs (.top pre "R") "TOPLEVEL" "STRUCTURAL" none
  /-- results file without hierarchy -/
  | resAlone {pre} : ofType "HIERARCH" outs = [] →
      Classified outs (.top pre "R") "FIRSTLEVEL" "STRUCTURAL" (some none)
  /-- results file below another superelement -/
  | resLow {pre t i hp hrec} :
      Classified outs (.low pre "R" t i hp hrec) "FIRSTLEVEL" "STRUCTURAL" (some i)
  /-- model or load file at the top of a hierarchy -/
  | modTop {pre ft} : ft ∈ ["T", "L"] → ofType "HIERARCH" outs ≠ [] →
      Classified outs (.top pre ft) "TOPLEVEL" "STRUCTURAL" none
  /-- model or load file without hierarchy -/
  | modAlone {pre ft} : ft ∈ ["T", "L"] → ofType "HIERARCH" outs = [] →
      Classified outs (.top pre ft) "FIRSTLEVEL" "STRUCTURAL" none
  /-- model or load file of a superelement of level above 1 -/
  | modInter {pre ft t i hp hrec lev} : ft ∈ ["T", "L"] → HasField hrec 4 lev → 1 < lev →
      Classified outs (.low pre ft t i hp hrec) "INTERLEVEL" "STRUCTURAL" none
  /-- model or load file of a superelement of level 1 -/
  | modFirst {pre ft t i hp hrec lev} : ft ∈ ["T", "L"] → HasField hrec 4 lev → lev ≤ 1 →
      Classified outs (.low pre ft t i hp hrec) "FIRSTLEVEL" "STRUCTURAL" none
  /-- hydrodynamic file -/
  | hydro {pl} : pl.letter = "G" → Classified outs pl "" "HYDRODYNAMIC" none
  /-- any other letter -/
  | other {pl} : pl.letter ∉ ["R", "T", "L", "G"] → Classified outs pl "" "UNKNOWN" none

/-- the groups after the conversion: `p` has the attributes `a`, its parents exist, other groups
are as before -/
def GroupsAfter (h0 : H5) (p : Path) (a : Attrs) (h : H5) : Prop :=
  h.groups p = some a ∧
  (∀ q, q <+: p → q ≠ [] → q ≠ p → h.groups q = some ((h0.groups q).getD {})) ∧
  (∀ q, ¬ q <+: p ∨ q = [] → q ≠ p → h.groups q = h0.groups q)

/-- the state of the module before a file is read: everything but the element types, the name
prefix and, for lower files, the hierarchy, is forgotten -/
def Clean (pl : Place) (e0 : Int → Option Int) (h0 : H5) (st : St) : Prop :=
  st.h5 = h0 ∧ st.env = { elem := e0 } ∧ st.g.recordNames = [] ∧ (∀ n, st.g.tables n = none) ∧
  st.g.currentSeltyp = none ∧ st.g.attoplevel = false ∧
  match pl with
  | .top pre ft => st.g.groupnamePrefix = pre ∧ st.g.filetypeid = ft ∧ st.g.currentIndsel = none ∧
      st.g.hasHierarch = false
  | .low pre ft _ index hp hrec => st.g.groupnamePrefix = pre ∧ st.g.filetypeid = ft ∧
      st.g.currentIndsel = index ∧ st.g.hasHierarch = true ∧ st.g.hierarchTable = some hp ∧
      st.g.currentHrec = some hrec

end Verif.Parse
