import Verif.Parse.Cut
/-!
# Unformatted files that are filled up, or end behind a length byte

The header of a record is read from the bytes that follow its length byte, as many as there are.
Where the length is 0, or nothing follows, the header has no name, which is how the reading is told
that there is nothing more: the file is converted as though it were complete.
-/

namespace Verif.Parse
open Verif Verif.Seq

/-- what follows the last record of such a file: a record of length 0 and anything else (as the zeros
that a file is filled up with), or a length byte alone -/
inductive Tail : Bytes → Prop
  | filled {t z} : Tail (0 :: t :: z)
  | length {l} : Tail [l]

/-- a record whose end is not looked for in the record behind it -/
def EndsAlone (sk : LRec → Bool) (r : LRec) : Prop :=
  ¬ Short r ∧ (sk r = true → r.pre ≠ [] ∨ r.vals ≠ [] ∨ isTD r.name ∨
    ∃ x t, r.head = x :: t ∧ x.ltZero = true)

section
variable {only : Option (List String)} {sk : LRec → Bool} {e0 : Int → Option Int} {D : Dec}

theorem body_nil {r : LRec} (h : U.Body D r []) : r.pre = [] ∧ r.vals = [] := by
  obtain ⟨ps, fs, e, h1, vss, h2, h3, -⟩ := h
  obtain ⟨rfl, rfl⟩ := List.append_eq_nil_iff.mp e.symm
  cases h2
  generalize r.pre = p at h1
  cases h1
  exact ⟨rfl, (List.append_eq_nil_iff.mp h3.symm).1⟩

/-- the first records of an unformatted file, and then something without a name -/
theorem unformatted_tail {z : Bytes} {b : List LRec} (hb : b ≠ []) :
    ∀ (a : List LRec) {bs : Bytes}, U.Encodes D sk z (a ++ b) bs → stopMark ∉ a →
      (∀ r ∈ a.getLast?, EndsAlone sk r) →
      ∃ bs1 bs2, bs = bs1 ++ bs2 ∧ U.Encodes D sk [] a bs1 ∧
        ∀ tail, Tail tail → ∃ z', U.Encodes D sk z' (a ++ [stopMark]) (bs1 ++ tail)
  | [], bs, _, _, _ => ⟨[], bs, rfl, .nil, fun tail ht => by
      cases ht with
      | filled => exact ⟨_, .empty⟩
      | length => exact ⟨[], .cut rfl⟩⟩
  | r :: a, bs, h, hs, hl => by
    have hs' : stopMark ∉ a := fun h => hs (List.mem_cons_of_mem _ h)
    have hl' : ∀ r ∈ a.getLast?, EndsAlone sk r := fun y hy => hl y (by
      rw [List.getLast?_cons, hy]
      rfl)
    generalize hg : r :: a ++ b = g at h
    cases h with
    | nil => cases hg
    | empty =>
      obtain ⟨rfl, -⟩ := List.cons.inj hg
      exact absurd List.mem_cons_self hs
    | cut =>
      obtain ⟨rfl, -⟩ := List.cons.inj hg
      exact absurd List.mem_cons_self hs
    | @cons _ _ _ body _ _ h1 h2 h3 h4 h5 =>
      obtain ⟨rfl, rfl⟩ := List.cons.inj hg
      obtain ⟨bs1, bs2, rfl, k1, k⟩ := unformatted_tail hb a h5 hs' hl'
      refine ⟨_, bs2, (List.append_assoc _ _ _).symm, .cons h1 h2 h3 (fun e n hn => ?_) k1,
        fun tail ht => ?_⟩
      · cases a with
        | nil => cases hn
        | cons x a => exact h4 e n hn
      obtain ⟨z', k'⟩ := k tail ht
      refine ⟨z', ?_⟩
      rw [List.append_assoc]
      refine .cons h1 h2 h3 (fun e n hn => ?_) k'
      cases a with
      | cons x a => exact h4 e n hn
      | nil =>
        obtain rfl : stopMark = n := by simpa using hn
        obtain ⟨y, b, rfl⟩ := List.exists_cons_of_ne_nil hb
        cases h4 e y (by simp) with
        | negative h0 t k1 k2 k3 k4 => exact .negative h0 t k1 k2 k3 k4
        | minusFive h0 t c fs k1 k2 k3 k4 k5 => exact .minusFive h0 t c fs k1 k2 k3 k4 k5
        | text h0 g1 g2 g3 t a b k1 k2 k3 k4 k5 k6 => exact .text h0 g1 g2 g3 t a b k1 k2 k3 k4 k5 k6
        | blankLed h0 t k1 k2 k3 k4 k5 => exact .blankLed h0 t k1 k2 k3 k4 k5
        | alone h0 t k1 k2 k3 k4 k5 =>
          exfalso
          subst k4
          obtain ⟨g1, g2⟩ := body_nil h2
          rcases (hl r (by simp)).2 e with g | g | g | ⟨x, t', g, g'⟩
          · exact g g1
          · exact g g2
          · exact k3 g
          · rw [k1] at g
            obtain ⟨rfl, -⟩ := List.cons.inj g
            rw [k2] at g'
            cases g'
        | counted h0 t c cs k1 k2 k3 k4 k5 k6 k7 k8 k9 =>
          exact .counted h0 t c cs k1 k2 k3 k4 k5 k6 k7 k8 k9

variable {pl : Place} {s : Int} {h0 : H5} {st : St} {lev dt : String} {ix : Option (Option Int)}

/-- **C86** An unformatted file that ends behind the length byte of a record, or is filled up with zeros
from the end of a record on, is converted as the records in front of that place: nothing is raised,
they get the rows they get from the whole file, and the end record is missing from the record types
that are listed. -/
theorem unformatted_filled {a b : List LRec} {outs : List Added} {names : List String} {z bs : Bytes}
    (hacc : Accepts only sk e0 none [] (a ++ b) outs names) (henc : U.Encodes D sk z (a ++ b) bs)
    (hb : b ≠ []) (hs : stopMark ∉ a) (hlast : ∀ r ∈ a.getLast?, EndsAlone sk r) :
    ∃ bs1 bs2 o1 o2 n1 n2, bs = bs1 ++ bs2 ∧ outs = o1 ++ o2 ∧ names = n1 ++ n2 ∧
      U.Encodes D sk [] a bs1 ∧ Accepts only sk e0 none [] (a ++ [stopMark]) o1 n1 ∧
      ("IEND" ∉ a.map LRec.name → "IEND" ∉ n1) ∧
      (s ≠ 0 → GivesType s o1 → pl.Allows s o1 → pl.In h0 →
        (∀ l ∈ layouts, h0.tabs (pl.path s, l.name) = none) → Classified o1 pl lev dt ix →
        Clean pl e0 h0 st → ∀ B k tail, Tail tail →
          ∃ st', parseSource D B only st (.unformatted (k :: (bs1 ++ tail))) = .ok st' ∧
            Converted o1 n1 pl s h0 lev dt ix st'.h5) := by
  have hname : "" ∉ a.map LRec.name := fun hm => by
    obtain ⟨x, hx, hn⟩ := List.mem_map.mp hm
    rcases unformatted_names henc x (by simp [hx]) with k | rfl
    · exact k.1 (by rw [hn]; rfl)
    · exact hs hx
  have hend : b.head? ≠ some endMark := fun h => by
    obtain ⟨rs, rfl⟩ := List.head?_eq_some_iff.mp h
    rcases unformatted_names henc endMark (by simp) with h | h
    · exact h.1 rfl
    · cases h
  obtain ⟨o1, o2, n1, n2, e1, e2, k⟩ := Accepts.cutBy (m := stopMark) rfl a hacc hname (by simp)
    fun r hr _ _ _ ha => ha.ahead (hlast r hr).1 fun h => absurd h hend
  obtain ⟨bs1, bs2, e3, k2, k1⟩ := unformatted_tail hb a henc hs hlast
  refine ⟨bs1, bs2, o1, o2, n1, n2, e3, e1, e2, k2, k, fun h hn => ?_,
    fun h1 h2 h3 h4 h5 h6 h7 B _ tail ht => ?_⟩
  · have := k.names_sub _ hn
    rw [List.map_append, List.mem_append] at this
    rcases this with g | g
    · exact h g
    · simp [stopMark] at g
  · obtain ⟨z', k'⟩ := k1 tail ht
    exact Job.source ⟨k, h1, h2, h3, h4, h5, h6⟩ h7 B (.unformatted k')

end

namespace Demo

theorem endsPlain {r : LRec} (h : (optionalTypes.all fun t => t.1 != r.name) = true) :
    EndsAlone (fun _ => false) r := ⟨notShort h, fun h => by cases h⟩

/-- the hypotheses of `unformatted_filled` are met: the identification and two nodes, and then zeros -/
example : ∃ bs1 bs2 o1 o2 n1 n2, bytes file = bs1 ++ bs2 ∧ outs = o1 ++ o2 ∧ names = n1 ++ n2 ∧
    U.Encodes Dec.std (fun _ => false) [] cutFile bs1 ∧ "IEND" ∉ n1 := by
  obtain ⟨bs1, bs2, o1, o2, n1, n2, k1, k2, k3, k4, -, k5, -⟩ := unformatted_filled (D := Dec.std)
    (z := []) (a := cutFile) (b := file.drop 3) (s := 5) (pl := .top "" "T") (h0 := {}) (st := {})
    (lev := "FIRSTLEVEL") (dt := "STRUCTURAL") (ix := none)
    (cutSplit ▸ accepted fun _ => false) (encodesU (f := file) (by decide +kernel))
    (by decide +kernel) (by decide +kernel) (fun r hr => by
      obtain rfl : r = file[2] := by
        have : cutFile.getLast? = some file[2] := by decide +kernel
        rw [this] at hr
        exact (Option.some.inj hr).symm
      exact endsPlain (by decide +kernel))
  exact ⟨bs1, bs2, o1, o2, n1, n2, k1, k2, k3, k4, k5 (by decide +kernel)⟩

theorem encodesU_append {D : Dec} {z : Bytes} {f g : List LRec} {bs tail : Bytes}
    (h : U.Encodes D (fun _ => false) [] f bs) (hs : stopMark ∉ f)
    (k : U.Encodes D (fun _ => false) z g tail) :
    U.Encodes D (fun _ => false) z (f ++ g) (bs ++ tail) := by
  induction h with
  | nil => exact k
  | empty => simp at hs
  | cut => simp at hs
  | cons h1 h2 h3 _ _ ih =>
    rw [List.append_assoc]
    exact .cons h1 h2 h3 (fun e => by cases e) (ih fun h => hs (List.mem_cons_of_mem _ h))

/-- both nodes are converted although the unformatted file has zeros behind them, or ends in the
middle of the next record -/
example (tail : Bytes) (ht : Tail tail) :
    ∃ st', parseSource Dec.std 10000 none { g := { filetypeid := "T" } }
      (.unformatted (75 :: (bytes cutFile ++ tail))) = .ok st' ∧
    st'.h5.tabs (["T5"], "GNODE") =
      some ((contents (lay "GNODE") cutOuts).table (lay "GNODE")) := by
  have job : Job none (fun _ => false) (fun _ => none) (cutFile ++ [stopMark]) cutOuts
      ["IDENT", "GNODE"] (.top "" "T") 5 {} "FIRSTLEVEL" "STRUCTURAL" none :=
    { accepted := cutAcceptedBy _ rfl
      sel := by decide
      gives := ⟨_, rfl, .inl ⟨rfl, rfl⟩⟩
      allows := by
        intro o ho hn
        exfalso
        revert o
        decide +kernel
      hier := trivial
      free := fun _ _ => rfl
      classified := .modAlone (by decide) (by decide +kernel) }
  have henc : ∃ z, U.Encodes Dec.std (fun _ => false) z (cutFile ++ [stopMark])
      (bytes cutFile ++ tail) := by
    have := encodesU (f := cutFile) (by decide +kernel)
    cases ht with
    | filled => exact ⟨_, encodesU_append this (by decide +kernel) .empty⟩
    | length => exact ⟨[], encodesU_append this (by decide +kernel) (.cut rfl)⟩
  obtain ⟨z, henc⟩ := henc
  obtain ⟨st', k1, k2⟩ := job.source clean 10000 (.unformatted henc)
  exact ⟨st', k1, k2.tables.1 (lay "GNODE") (by decide +kernel) (by decide +kernel)⟩

end Demo
end Verif.Parse
