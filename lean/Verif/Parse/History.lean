import Verif.Parse.Records
/-!
# What a conversion leaves behind for later ones: property C73

C16 is false of the code: the types of elements of earlier files are kept.  Here is what is kept
exactly.
-/

namespace Verif.Parse
open Verif Verif.Seq

section
variable {only : Option (List String)} {sk : LRec → Bool} {e0 e1 : Int → Option Int}
  {f f' : List LRec} {outs outs' : List Added} {names names' : List String} {pl : Place} {s s' : Int}
  {h0 : H5} {lev dt lev' dt' : String} {ix ix' : Option (Option Int)} {st : St} {D D' : Dec}
  {src src' : Source}

/-- **C73** The element types known after a conversion: for each element number the type in the
last element record of the file with this number; if there is none, what was known before. -/
theorem elements_kept (j : Job none sk e0 f outs names pl s h0 lev dt ix)
    (hclean : Clean pl e0 h0 st) (henc : Encoded D sk f src) (B : Nat) :
    ∃ st', parseSource D B none st src = .ok st' ∧
      ∀ k t, st'.env.elem k = some t ↔ TypeOf e0 ((events [] f).map Event.record).reverse k t := by
  obtain ⟨st', h1, _, _, h2⟩ := j.sourceState hclean B henc
  exact ⟨st', h1, fun k t => (h2 rfl).elem_iff k t⟩

/-- **C73** A conversion after another one: the second file is converted as a file that makes sense
given the element types `e1` that the first one has left behind. -/
theorem second_conversion (j : Job none sk e0 f outs names pl s h0 lev dt ix)
    (hclean : Clean pl e0 h0 st) (henc : Encoded D sk f src)
    (he1 : ∀ k t, e1 k = some t ↔ TypeOf e0 ((events [] f).map Event.record).reverse k t)
    {pre ft : String} {h0' : H5}
    (j' : Job only sk e1 f' outs' names' (.top pre ft) s' h0' lev' dt' ix')
    (henc' : Encoded D' sk f' src') (B : Nat) :
    ∃ st' st'', parseSource D B none st src = .ok st' ∧
      parseSource D' B only (started pre ft { st' with h5 := h0' }) src' = .ok st'' ∧
      Converted outs' names' (.top pre ft) s' h0' lev' dt' ix' st''.h5 := by
  obtain ⟨st', h1, h2⟩ := elements_kept j hclean henc B
  have he : st'.env.elem = e1 := by
    funext k
    cases h : st'.env.elem k with
    | some t => exact (((he1 k t).mpr ((h2 k t).mp h))).symm
    | none =>
      cases h' : e1 k with
      | none => rfl
      | some t => rw [(h2 k t).mpr ((he1 k t).mp h')] at h; cases h
  have hc := started_clean pre ft { st' with h5 := h0' }
  simp only [he] at hc
  obtain ⟨st'', h3, h4⟩ := j'.source hc B henc'
  exact ⟨st', st'', h1, h3, h4⟩

end

namespace Demo

/-- the element type table left behind by the demo file -/
def kept : Int → Option Int := fun k => if k = 1 then some 15 else none

theorem kept_iff (k t : Int) : kept k = some t ↔
    TypeOf (fun _ => none) ((events [] file).map Event.record).reverse k t := by
  have int : ∀ {x : PyF} (n : Int), x.toInt = .ok n → HasInt x n := fun n h => toInt_hasInt h
  have hrecs : ((events [] file).map Event.record) = file.take 8 := by decide +kernel
  rw [hrecs]
  unfold kept
  constructor
  · intro h
    split at h
    · next hk =>
      cases h
      subst hk
      refine .inl (.earlier ?_ (.earlier ?_ (.here ⟨rfl, _, _, _, _, rfl, int 1 (by decide +kernel),
        int 15 (by decide +kernel)⟩)))
      all_goals
        rintro a ⟨h, -⟩
        exact absurd h (by decide +kernel)
    · cases h
  · rintro (h | ⟨_, h⟩)
    · have mem : ∀ {past : List LRec} {a : Int}, Latest (DeclType k) past a →
          ∃ r ∈ past, DeclType k r a := by
        intro past a h
        induction h with
        | here h => exact ⟨_, by simp, h⟩
        | earlier _ _ ih =>
          obtain ⟨r, h1, h2⟩ := ih
          exact ⟨r, by simp [h1], h2⟩
      obtain ⟨r, h1, h2, a, b, c, d, h3, h4, h5⟩ := mem h
      have only1 : ∀ r ∈ (file.take 8).reverse, r.name = "GELMNT1" →
          r.head = [.rat 1, .rat 1, .rat 15, .rat 0] := by decide +kernel
      rw [only1 r h1 h2] at h3
      simp only [List.cons.injEq, and_true] at h3
      obtain ⟨_, rfl, rfl, _⟩ := h3
      rw [h4.unique (int 1 (by decide +kernel)), h5.unique (int 15 (by decide +kernel))]
      rfl
    · cases h

/-- what `strayElement` adds to the tables, given the type of element 1 -/
def strayOuts : List Added := [
  ⟨"IDENT", true, [.sc (.int 1), .sc (.int 5), .sc (.int 3)], []⟩,
  ⟨"GELREF1", true, [.sc (.int 1), .sc (.int 4), .sc (.int 0), .sc (.int 0), .sc (.int 0),
    .sc (.int 0), .sc (.int 0), .sc (.int 0), .sc (.int (-1)), .sc (.int 9), .sc (.int 0),
    .sc (.int 0)], [some [.sc (.int 7), .sc (.int 8)], some [], some [], some []]⟩]

theorem strayAccepted (sk : LRec → Bool) :
    Accepts none sk kept none [] strayElement strayOuts ["IDENT", "GELREF1", "IEND"] := by
  have nv : ∀ {n : String} {x : PyF} {t : List PyF} {p sk v d}, x.ltZero = false →
      NotVoid ⟨n, x :: t, p, sk, v, d⟩ := fun h => ⟨_, _, rfl, h⟩
  have fo : ∀ {r : LRec}, r.name ≠ "SCONMESH" → FirstOK r := fun h h' => absurd h' h
  have int : ∀ {x : PyF} (n : Int), x.toInt = .ok n → HasInt x n := fun n h => toInt_hasInt h
  unfold strayElement strayOuts
  refine .ident rfl trivial (nv (by decide +kernel)) ?_ ?_
  · exact ⟨_, lay "IDENT", .ident (int 1 (by decide +kernel)) (int 5 (by decide +kernel))
      (int 3 (by decide +kernel)), by decide +kernel, rfl, rfl, rfl, by stored, by stored⟩
  refine .first (by simp) (by simp) trivial (nv (by decide +kernel)) (fo (by simp)) ?_ ?_
  · refine ⟨_, lay "GELREF1", .gelref1 (geo := [.rat 7, .rat 8]) (fix := []) (ecc := [])
      (trans := []) (nn := 2) (ty := 15) (int 1 (by decide +kernel)) (.inr ⟨?_, rfl⟩)
      (by unfold NodeCount; simp) ⟨fun _ => rfl, fun h => absurd rfl h⟩
      ⟨fun h => absurd h (by decide +kernel), fun _ => rfl⟩
      ⟨fun h => absurd h (by decide +kernel), fun _ => rfl⟩
      ⟨fun h => absurd h (by decide +kernel), fun _ => rfl⟩,
      by decide +kernel, rfl, rfl, rfl, by stored, by stored⟩
    intro r hr a h
    simp only [List.mem_singleton] at hr
    subst hr
    exact absurd h.1 (by decide)
  exact .stop trivial ⟨rfl, _, _, rfl, rfl⟩

theorem strayJob : Job none (fun _ => false) kept strayElement strayOuts
    ["IDENT", "GELREF1", "IEND"] (.top "X_" "T") 5 {} "FIRSTLEVEL" "STRUCTURAL" none where
  accepted := strayAccepted _
  sel := by decide
  gives := ⟨_, rfl, .inl ⟨rfl, rfl⟩⟩
  allows := by
    intro o ho hn
    exfalso
    revert o
    decide +kernel
  hier := trivial
  free := fun _ _ => rfl
  classified := .modAlone (by decide) (by decide +kernel)

end Demo

example (B : Nat) := elements_kept Demo.job Demo.clean Demo.onDisk.1 B

/-- the file that describes an element it does not define, after the one that defines it -/
example (B : Nat) := second_conversion Demo.job Demo.clean Demo.onDisk.1 Demo.kept_iff
  Demo.strayJob (.unformatted (k := 75) (Demo.encodesU (by decide +kernel))) B

end Verif.Parse
