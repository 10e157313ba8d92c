import Verif.Data.ElemResProps
import Verif.Data.DemoMesh
import Mathlib.Analysis.Real.Sqrt
/-!
# Element results: examples
-/

namespace Verif.Data.Demo
open Verif Verif.Data

/-! ## extrapolation -/

theorem sqrt3 : √(3 : ℝ) * √3 = 3 := Real.mul_self_sqrt (by norm_num)

/-- the values of a field at the result points: lower side, upper side -/
def sampled {P : Type} (g : ℝ) (A B T : Nat → P → ℝ) (pts : List P) : List ℝ :=
  (pts.flatMap fun q => [A 0 q - g • B 0 q, A 1 q - g • B 1 q, A 2 q - g • B 2 q, T 0 q, T 1 q]) ++
  (pts.flatMap fun q => [A 0 q + g • B 0 q, A 1 q + g • B 1 q, A 2 q + g • B 2 q, T 0 q, T 1 q])

noncomputable def fieldA (c : Nat) : ℝ × ℝ → ℝ := bilinear (10 * c) 1 2 3
noncomputable def fieldB (c : Nat) : ℝ × ℝ → ℝ := bilinear (-c) 5 0 1
noncomputable def fieldT (c : Nat) : ℝ × ℝ → ℝ := bilinear 1 c 0 0

theorem sampled_low (p : Nat) (q : ℝ × ℝ) (c : Nat) (hq : (quadPoints (√(3 : ℝ) / 3))[p]? = some q) (hc : c < 3) :
    (sampled (√3 / 3) fieldA fieldB fieldT (quadPoints (√3 / 3)))[5 * p + c]? =
      some (fieldA c q - (√3 / 3) • fieldB c q) := by
  match p, hq with
  | 0, hq => cases hq; interval_cases c <;> rfl
  | 1, hq => cases hq; interval_cases c <;> rfl
  | 2, hq => cases hq; interval_cases c <;> rfl
  | 3, hq => cases hq; interval_cases c <;> rfl
  | _ + 4, hq => simp [quadPoints] at hq

theorem sampled_up (p : Nat) (q : ℝ × ℝ) (c : Nat) (hq : (quadPoints (√(3 : ℝ) / 3))[p]? = some q) (hc : c < 3) :
    (sampled (√3 / 3) fieldA fieldB fieldT (quadPoints (√3 / 3)))[5 * (4 + p) + c]? =
      some (fieldA c q + (√3 / 3) • fieldB c q) := by
  match p, hq with
  | 0, hq => cases hq; interval_cases c <;> rfl
  | 1, hq => cases hq; interval_cases c <;> rfl
  | 2, hq => cases hq; interval_cases c <;> rfl
  | 3, hq => cases hq; interval_cases c <;> rfl
  | _ + 4, hq => simp [quadPoints] at hq

theorem sampled_shear (p : Nat) (q : ℝ × ℝ) (j : Nat) (hq : (quadPoints (√(3 : ℝ) / 3))[p]? = some q) (hj : j < 2) :
    (sampled (√3 / 3) fieldA fieldB fieldT (quadPoints (√3 / 3)))[5 * p + (3 + j)]? = some (fieldT j q) := by
  match p, hq with
  | 0, hq => cases hq; interval_cases j <;> rfl
  | 1, hq => cases hq; interval_cases j <;> rfl
  | 2, hq => cases hq; interval_cases j <;> rfl
  | 3, hq => cases hq; interval_cases j <;> rfl
  | _ + 4, hq => simp [quadPoints] at hq

/-- C43, quadrilateral -/
example := quad_stress_exact sqrt3 (d := sampled (√3 / 3) fieldA fieldB fieldT (quadPoints (√3 / 3))) rfl
  (fun c _ => ⟨_, _, _, _, fun _ => rfl⟩) (fun c _ => ⟨_, _, _, _, fun _ => rfl⟩) sampled_low sampled_up
/-- C43 and C44, quadrilateral -/
example := quad_decomposed_exact sqrt3 (d := sampled (√3 / 3) fieldA fieldB fieldT (quadPoints (√3 / 3))) rfl
  (fun c _ => ⟨_, _, _, _, fun _ => rfl⟩) (fun c _ => ⟨_, _, _, _, fun _ => rfl⟩)
  (fun c _ => ⟨_, _, _, _, fun _ => rfl⟩) sampled_low sampled_up sampled_shear

noncomputable def triA (c : Nat) : ℝ × ℝ × ℝ → ℝ := linear3 (10 * c) 1 2
noncomputable def triB (c : Nat) : ℝ × ℝ × ℝ → ℝ := linear3 (-c) 5 0

theorem tri_low (p : Nat) (q : ℝ × ℝ × ℝ) (c : Nat) (hq : triPoints[p]? = some q) (hc : c < 3) :
    (sampled (√3 / 3) triA triB triA triPoints)[5 * p + c]? = some (triA c q - (√3 / 3) • triB c q) := by
  match p, hq with
  | 0, hq => cases hq; interval_cases c <;> rfl
  | 1, hq => cases hq; interval_cases c <;> rfl
  | 2, hq => cases hq; interval_cases c <;> rfl
  | _ + 3, hq => simp [triPoints] at hq

theorem tri_up (p : Nat) (q : ℝ × ℝ × ℝ) (c : Nat) (hq : triPoints[p]? = some q) (hc : c < 3) :
    (sampled (√3 / 3) triA triB triA triPoints)[5 * (3 + p) + c]? = some (triA c q + (√3 / 3) • triB c q) := by
  match p, hq with
  | 0, hq => cases hq; interval_cases c <;> rfl
  | 1, hq => cases hq; interval_cases c <;> rfl
  | 2, hq => cases hq; interval_cases c <;> rfl
  | _ + 3, hq => simp [triPoints] at hq

theorem tri_shear (p : Nat) (q : ℝ × ℝ × ℝ) (j : Nat) (hq : triPoints[p]? = some q) (hj : j < 2) :
    (sampled (√3 / 3) triA triB triA triPoints)[5 * p + (3 + j)]? = some (triA j q) := by
  match p, hq with
  | 0, hq => cases hq; interval_cases j <;> rfl
  | 1, hq => cases hq; interval_cases j <;> rfl
  | 2, hq => cases hq; interval_cases j <;> rfl
  | _ + 3, hq => simp [triPoints] at hq

/-- C43, triangle -/
example := tri_stress_exact sqrt3 (d := sampled (√3 / 3) triA triB triA triPoints) rfl
  (fun c _ => ⟨_, _, _, fun _ => rfl⟩) (fun c _ => ⟨_, _, _, fun _ => rfl⟩) tri_low tri_up
example := tri_decomposed_exact sqrt3 (d := sampled (√3 / 3) triA triB triA triPoints) rfl
  (fun c _ => ⟨_, _, _, fun _ => rfl⟩) (fun c _ => ⟨_, _, _, fun _ => rfl⟩)
  (fun c _ => ⟨_, _, _, fun _ => rfl⟩) tri_low tri_up tri_shear

/-- the forces of a beam at its two result points -/
noncomputable def beamField (a b : Nat → ℝ) : List ℝ :=
  (List.range 6).map (fun k => a k + (-(√(3 : ℝ) / 3)) • b k) ++ (List.range 6).map fun k => a k + (√3 / 3) • b k

/-- C43, beam -/
example (a b : Nat → ℝ) := beam_force_exact sqrt3 (restype := "beamforce") (d := beamField a b) rfl (a := a)
  (b := b) (by
    intro p x k hp hk
    match p, hp with
    | 0, hp => cases hp; interval_cases k <;> rfl
    | 1, hp => cases hp; interval_cases k <;> rfl
    | _ + 2, hp => simp [beamPoints] at hp)

/-- C44, 4-node shell: lower surface 1, 2, 3 and upper surface 16, 17, 18 at the first node -/
example := decomposition_recombines (K := Rat) (V := Rat) (s3 := 0) (eltyp := 24) (m := 3) (.inl ⟨.inl rfl, rfl⟩)
  (thin_quad_points 0 "nodes" (d := (List.range 30).map fun i => (i + 1 : Rat)) rfl)
example : (processElem (V := Rat) (0 : Rat) 24 "decomposedstress" "nodes"
      ((List.range 30).map fun i => (i + 1 : Rat))).toOption.map (·.map fun b => b.rows.head?) =
    some (some (some [17/2, 19/2, 21/2, 15/2, 15/2, 15/2])) := by decide +kernel

/-! ## element results -/

def elemRefs : List ResRef := [⟨7, 1, 1, 0⟩, ⟨8, 2, 1, 0⟩, ⟨9, 1, 2, 0⟩]

/-- 18 values from `100 n` -/
def forces (n : Nat) : List Rat := (List.range 18).map fun i => (100 * n + i : Rat)

def force (ires : Int) (elem n : Nat) : ElemRec Rat := ⟨ires, elem, 15, forces n⟩

/-- forces of the beams, elements 1 and 4, in three result cases -/
def elemRecs : List (ElemRec Rat) :=
  [force 7 1 1, force 7 4 2, force 8 1 3, force 8 4 4, force 9 1 5, force 9 4 6]

def meshQ : Mesh Rat where
  nodes := mesh.nodes.map fun n => ⟨n.ext, ⟨0, 0, 0⟩⟩
  elems := mesh.elems

def elemObject : Struc Rat where
  gnode := some [⟨11, 1⟩, ⟨12, 2⟩, ⟨13, 3⟩, ⟨14, 4⟩, ⟨15, 5⟩, ⟨16, 6⟩]
  gcoord := some (List.replicate 6 ⟨0, 0, 0⟩)
  gelmnt1 := object.gelmnt1
  rdresref := some elemRefs
  rvforces := some
    ([⟨7, 1, 15, 0, 18⟩, ⟨7, 4, 15, 18, 36⟩, ⟨8, 1, 15, 36, 54⟩, ⟨8, 4, 15, 54, 72⟩, ⟨9, 1, 15, 72, 90⟩,
      ⟨9, 4, 15, 90, 108⟩],
     forces 1 ++ forces 2 ++ forces 3 ++ forces 4 ++ forces 5 ++ forces 6)

theorem elemHolds : Holds elemObject meshQ where
  isOpen := rfl
  nodes := ⟨_, rfl, .cons (.cons (.cons (.cons (.cons (.cons .nil)))))⟩
  coords := rfl
  elems := ⟨_, rfl, .cons (.cons (.cons (.cons .nil)))⟩

theorem elemValid : Valid meshQ where
  nodes := by
    intro e he
    have := valid.nodes e he
    refine ⟨this.1, fun n hn => ?_⟩
    have := this.2 n hn
    simpa [meshQ] using this
  sets := by simp [meshQ]

theorem elemChosen : Chosen meshQ .none (some "beam") [0, 3] := by
  obtain ⟨P, Q, hP, hQ, h⟩ := chosenBeam
  cases hP
  exact ⟨_, Q, .all, hQ, h⟩

theorem elemHoldsRes : HoldsElemRes elemObject "beamforce" "beam" storedReal elemRecs := by
  refine ⟨_, _, .beamforce, ?_⟩
  have h : ∀ a b : Nat, a ≤ b → b ≤ 108 → ∀ l : List Rat,
      ((forces 1 ++ forces 2 ++ forces 3 ++ forces 4 ++ forces 5 ++ forces 6).drop a).take (b - a) = l →
      Part (forces 1 ++ forces 2 ++ forces 3 ++ forces 4 ++ forces 5 ++ forces 6) a b (l.flatMap storedReal) :=
    fun a b hab hb l hl => ⟨a, b, rfl, rfl, hab, hb, by rw [real_stored]; exact hl⟩
  exact .cons ⟨rfl, rfl, rfl, h 0 18 (by decide) (by decide) _ (by decide +kernel)⟩ <|
    .cons ⟨rfl, rfl, rfl, h 18 36 (by decide) (by decide) _ (by decide +kernel)⟩ <|
    .cons ⟨rfl, rfl, rfl, h 36 54 (by decide) (by decide) _ (by decide +kernel)⟩ <|
    .cons ⟨rfl, rfl, rfl, h 54 72 (by decide) (by decide) _ (by decide +kernel)⟩ <|
    .cons ⟨rfl, rfl, rfl, h 72 90 (by decide) (by decide) _ (by decide +kernel)⟩ <|
    .cons ⟨rfl, rfl, rfl, h 90 108 (by decide) (by decide) _ (by decide +kernel)⟩ .nil

theorem elem_wanted (c : Int) : (∃ r, Wanted elemRefs 1 .all r ∧ r.ires = c) ↔ c = 7 ∨ c = 9 := by
  constructor
  · rintro ⟨r, ⟨h1, h2, _⟩, rfl⟩
    simp only [elemRefs, List.mem_cons, List.not_mem_nil, or_false] at h1
    rcases h1 with rfl | rfl | rfl <;> simp_all
  · rintro (rfl | rfl)
    · exact ⟨⟨7, 1, 1, 0⟩, ⟨by simp [elemRefs], rfl, .inl rfl⟩, rfl⟩
    · exact ⟨⟨9, 1, 2, 0⟩, ⟨by simp [elemRefs], rfl, .inl rfl⟩, rfl⟩

theorem elemCases : CaseNumbers elemRefs 1 .all [7, 9] := by
  refine ⟨by decide, fun c => ?_⟩
  rw [elem_wanted]; simp

theorem concerns (ires : Int) (e n : Nat) :
    Concerns elemRefs 1 .all [0, 3] (force ires e n) ↔ (ires = 7 ∨ ires = 9) ∧ (e = 1 ∨ e = 4) := by
  unfold Concerns
  rw [show (force ires e n).ires = ires from rfl, elem_wanted]
  simp [force]

theorem elemKept : Kept (Concerns elemRefs 1 .all [0, 3]) elemRecs
    [[force 7 1 1, force 7 4 2], [force 9 1 5, force 9 4 6]].flatten := by
  refine .keep ?_ <| .keep ?_ <| .drop ?_ <| .drop ?_ <| .keep ?_ <| .keep ?_ .nil <;> rw [concerns] <;> decide

theorem elemLines : ∀ c ∈ [[force 7 1 1, force 7 4 2], [force 9 1 5, force 9 4 6]], LinesUp meshQ [0, 3] c := by
  intro c hc
  simp only [List.mem_cons, List.not_mem_nil, or_false] at hc
  rcases hc with rfl | rfl <;>
  exact .cons ⟨rfl, rfl, _, rfl, rfl⟩ <| .cons ⟨rfl, rfl, _, rfl, rfl⟩ .nil

/-- C50: forces of two beams in two result cases -/
example := element_results_real_partial elemHolds elemValid (.inl (.inl rfl)) elemChosen
  (l := [⟨101, 15, [1, 5]⟩, ⟨104, 15, [5, 3]⟩]) (.cons rfl (.cons rfl .nil)) (by simp) (dims := [6])
  (by intro e he; simp only [List.mem_cons, List.not_mem_nil, or_false] at he; rcases he with rfl | rfl <;> rfl)
  (by intro e he; simp only [List.mem_cons, List.not_mem_nil, or_false] at he; rcases he with rfl | rfl <;> rfl)
  elemHoldsRes (refs := elemRefs) rfl (run := 1) (rescases := .all)
  (by
    rintro r ⟨h1, _⟩
    simp only [elemRefs, List.mem_cons, List.not_mem_nil, or_false] at h1
    rcases h1 with rfl | rfl | rfl <;> rfl)
  elemCases (by simp) elemKept rfl elemLines (0 : Rat)

example : getElementResults (0 : Rat) elemObject "beamforce" "nodes" 1 .all .none =
    .ok (.real ⟨[2, 4, 6],
      [100, 101, 102, 103, 104, 105, 112, 113, 114, 115, 116, 117,
       200, 201, 202, 203, 204, 205, 212, 213, 214, 215, 216, 217,
       500, 501, 502, 503, 504, 505, 512, 513, 514, 515, 516, 517,
       600, 601, 602, 603, 604, 605, 612, 613, 614, 615, 616, 617]⟩) := by decide +kernel

/-- the stresses of a first and of a second order shell -/
def mixObject : Struc Rat where
  gelmnt1 := some ([⟨1, 1, 24, 0, 4⟩, ⟨2, 2, 28, 4, 12⟩], [1, 2, 3, 4, 1, 2, 3, 4, 5, 6, 7, 8])
  rdresref := some [⟨7, 1, 1, 0⟩]
  rvstress := some ([⟨7, 1, 24, 0, 30⟩, ⟨7, 2, 28, 30, 70⟩], List.replicate 70 1)

/-- **C50**: first and second order shells cannot be read together -/
theorem mixed_shells (s3 : Rat) :
    getElementResults s3 mixObject "generalstress" "nodes" 1 .all .none = .error .valueError := by
  have h : ∀ b1 b2 : Option (Block Rat), (∃ a c, b1 = some a ∧ b2 = some c ∧ a.dims ≠ c.dims) →
      concatBlocks [b1, b2] = .error .valueError := by
    rintro _ _ ⟨a, c, rfl, rfl, h⟩
    exact concatBlocks_mixed (bs := [a, c]) (by simp) (by simp) h
  show (collect s3 "generalstress" "nodes" Except.ok (List.replicate 70 1)
    [⟨7, 1, 24, 0, 30⟩, ⟨7, 2, 28, 30, 70⟩] 1).map ElemArray.real = _
  obtain ⟨b1, h1, h1'⟩ := (processElem_nodes (V := Rat) s3 (restype := "generalstress") (t := 24) rfl rfl
    (npSlice (List.replicate 70 1) 0 30)).1 (by decide +kernel)
  obtain ⟨b2, h2, h2'⟩ := (processElem_nodes (V := Rat) s3 (restype := "generalstress") (t := 28) rfl rfl
    (npSlice (List.replicate 70 1) 30 70)).1 (by decide +kernel)
  unfold collect
  simp only [List.mapM_cons, List.mapM_nil, bind_ok, h1, h2, pure_bind]
  show (concatBlocks [some b1, some b2] >>= fun a => splitCases "generalstress" 1 a).map ElemArray.real = _
  rw [h _ _ ⟨b1, b2, rfl, rfl, by rw [h1'.1, h2'.1]; decide⟩]
  rfl

theorem elem_real (r : ResRef) (h : Wanted elemRefs 1 .all r) : r.icompl = 0 := by
  obtain ⟨h1, _⟩ := h
  simp only [elemRefs, List.mem_cons, List.not_mem_nil, or_false] at h1
  rcases h1 with rfl | rfl | rfl <;> rfl

def fewObject : Struc Rat := { elemObject with rvforces := some ([⟨8, 1, 15, 0, 18⟩], forces 3) }
def oddObject : Struc Rat :=
  { elemObject with rvforces := some ([⟨7, 1, 15, 0, 18⟩, ⟨9, 4, 99, 18, 19⟩], forces 3 ++ [1]) }

/-- forces in another result case only -/
example := element_results_fail (d := fewObject) ⟨rfl, elemHolds.nodes, elemHolds.coords, elemHolds.elems⟩
  elemValid (.inl (.inl rfl)) elemChosen (recs := [force 8 1 3]) (restype := "beamforce")
  ⟨_, _, .beamforce, .cons ⟨rfl, rfl, rfl, 0, 18, rfl, rfl, by decide, by decide, by
    rw [real_stored]; decide +kernel⟩ .nil⟩
  (refs := elemRefs) rfl (run := 1) (rescases := .all) elem_real elemCases (by simp)
  (.drop (by rw [concerns]; decide) .nil) (s3 := (0 : Rat)) (pos := "nodes") .nil (.inl rfl)

/-- an element of a type without processing -/
example := element_results_error (d := oddObject) ⟨rfl, elemHolds.nodes, elemHolds.coords, elemHolds.elems⟩
  elemValid (.inl (.inl rfl)) elemChosen (recs := [force 7 1 3, ⟨9, 4, 99, [1]⟩]) (restype := "beamforce")
  ⟨_, _, .beamforce, .cons ⟨rfl, rfl, rfl, 0, 18, rfl, rfl, by decide, by decide, by
      rw [real_stored]; decide +kernel⟩ <|
    .cons ⟨rfl, rfl, rfl, 18, 19, rfl, rfl, by decide, by decide, by decide +kernel⟩ .nil⟩
  (refs := elemRefs) rfl (run := 1) (rescases := .all) elem_real elemCases (by simp)
  (before := [force 7 1 3]) (after := [])
  (.keep (by rw [concerns]; decide) <| .keep (by
    refine ⟨(elem_wanted 9).mpr (.inr rfl), 3, by simp, rfl⟩) .nil) (s3 := (0 : Rat)) (pos := "nodes")
  (by
    intro r hr
    obtain rfl := List.mem_singleton.mp hr
    exact ⟨_, beam_points 0 _ _ rfl⟩)
  (unknown_type 0 rfl _ _ _)

end Verif.Data.Demo
