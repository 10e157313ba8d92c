import Verif.Data.SectProps
/-!
# Names of sets and of result cases
-/

namespace Verif.Data
open Verif
open Verif.Seq (Str)

variable {K : Type}

section
variable {α β : Type} [DecidableEq α]

theorem dictSet_keys (k : α) (v : β) (d : List (α × β)) :
    (dictSet k v d).map Prod.fst = if k ∈ d.map Prod.fst then d.map Prod.fst else d.map Prod.fst ++ [k] := by
  induction d with
  | nil => simp [dictSet]
  | cons p d ih =>
    unfold dictSet
    by_cases h : p.1 = k
    · simp [h]
    · rw [if_neg h, List.map_cons, ih]
      have : ¬ k = p.1 := fun e => h e.symm
      by_cases hk : k ∈ d.map Prod.fst <;> simp [this, hk]

theorem dictSet_mem {k : α} {v : β} {d : List (α × β)} (hd : (d.map Prod.fst).Nodup) {q : α × β} :
    q ∈ dictSet k v d ↔ q = (k, v) ∨ q ∈ d ∧ q.1 ≠ k := by
  induction d with
  | nil => simp [dictSet]
  | cons p d ih =>
    rw [List.map_cons, List.nodup_cons] at hd
    unfold dictSet
    by_cases h : p.1 = k
    · rw [if_pos h, List.mem_cons, List.mem_cons]
      constructor
      · rintro (rfl | hq)
        · exact .inl rfl
        · refine .inr ⟨.inr hq, fun e => hd.1 ?_⟩
          rw [h, ← e]
          exact List.mem_map_of_mem hq
      · rintro (rfl | ⟨rfl | hq, he⟩)
        · exact .inl rfl
        · exact absurd h he
        · exact .inr hq
    · rw [if_neg h, List.mem_cons, List.mem_cons, ih hd.2]
      constructor
      · rintro (rfl | rfl | ⟨hq, he⟩)
        · exact .inr ⟨.inl rfl, h⟩
        · exact .inl rfl
        · exact .inr ⟨.inr hq, he⟩
      · rintro (rfl | ⟨rfl | hq, he⟩)
        · exact .inr (.inl rfl)
        · exact .inl rfl
        · exact .inr (.inr ⟨hq, he⟩)

theorem pyDict_snoc (l : List (α × β)) (p : α × β) : pyDict (l ++ [p]) = dictSet p.1 p.2 (pyDict l) := by
  unfold pyDict
  rw [List.foldl_append]
  rfl

theorem pyDict_nodup (l : List (α × β)) : ((pyDict l).map Prod.fst).Nodup := by
  induction l using List.reverseRecOn with
  | nil => exact List.nodup_nil
  | append_singleton l p ih =>
    rw [pyDict_snoc, dictSet_keys]
    split
    · exact ih
    · rename_i h
      rw [List.nodup_append]
      refine ⟨ih, by simp, fun a ha b hb => ?_⟩
      obtain rfl : b = p.1 := by simpa using hb
      rintro rfl
      exact h ha

theorem pyDict_distinct {l : List (α × β)} (h : (l.map Prod.fst).Nodup) : pyDict l = l := by
  have new : ∀ (d : List (α × β)) k v, k ∉ d.map Prod.fst → dictSet k v d = d ++ [(k, v)] := by
    intro d k v
    induction d with
    | nil => intro _; rfl
    | cons p d ih =>
      intro hk
      rw [List.map_cons, List.mem_cons, not_or] at hk
      unfold dictSet
      rw [if_neg (fun e => hk.1 e.symm), ih hk.2, List.cons_append]
  induction l using List.reverseRecOn with
  | nil => rfl
  | append_singleton l p ih =>
    rw [List.map_append, List.nodup_append] at h
    rw [pyDict_snoc, ih h.1, new]
    intro hp
    exact h.2.2 _ hp _ (by simp) rfl

end

theorem pyDict_mem {α : Type} (l : List (Int × α)) (g : Int) (x : α) :
    (g, x) ∈ pyDict l ↔ LastRow l g x := by
  induction l using List.reverseRecOn with
  | nil =>
    constructor
    · intro h; exact absurd h (List.not_mem_nil)
    · rintro ⟨a, b, h, -⟩; simp at h
  | append_singleton l p ih =>
    rw [pyDict_snoc, dictSet_mem (pyDict_nodup l), ih]
    constructor
    · rintro (h | ⟨⟨a, b, h1, h2⟩, h3⟩)
      · exact ⟨l, [], by rw [h], by simp⟩
      · refine ⟨a, b ++ [p], by rw [h1]; simp, ?_⟩
        intro q hq
        rcases List.mem_append.mp hq with hq | hq
        · exact h2 q hq
        · obtain rfl : q = p := by simpa using hq
          exact fun e => h3 e.symm
    · rintro ⟨a, b, h1, h2⟩
      rcases List.eq_nil_or_concat b with rfl | ⟨b, q, rfl⟩
      · left
        have := (List.append_inj' h1 rfl).2
        exact ((List.cons.inj this).1).symm
      · right
        rw [List.concat_eq_append] at h1 h2
        rw [← List.cons_append, ← List.append_assoc] at h1
        obtain ⟨h3, h4⟩ := List.append_inj' h1 rfl
        obtain rfl : p = q := by simpa using h4
        refine ⟨⟨a, b, h3, fun q hq => h2 q (by simp [hq])⟩, fun e => ?_⟩
        exact h2 p (by simp) e.symm

/-- **C57**: `get_setnames` gives the names in the order of the file, `None` if there are none. -/
theorem set_names {d : Struc K} (ho : d.isOpen = true) :
    (∀ rows, d.tdsetnam = some rows → getSetNames d = .ok (some (rows.map NameRow.name))) ∧
    (d.tdsetnam = none → getSetNames d = .ok none) := by
  constructor
  · intro rows h
    unfold getSetNames need
    rw [ho, h]
    rfl
  · intro h
    unfold getSetNames need
    rw [ho, h]
    rfl

/-- the load cases asked for -/
def Asked (rescases : Option (List Int)) (n : Int) : Prop :=
  match rescases with
  | none => True
  | some l => n ∈ l

theorem lastRow_filter {α : Type} {l : List (Int × α)} {p : Int → Bool} {g : Int} {x : α} :
    LastRow (l.filter fun q => p q.1) g x ↔ p g = true ∧ LastRow l g x := by
  induction l with
  | nil =>
    constructor
    · rintro ⟨a, b, h, -⟩; simp at h
    · rintro ⟨-, a, b, h, -⟩; simp at h
  | cons q l ih =>
    have key : ∀ (l : List (Int × α)) q, LastRow (q :: l) g x ↔
        LastRow l g x ∨ q = (g, x) ∧ ∀ r ∈ l, r.1 ≠ g := by
      intro l q
      constructor
      · rintro ⟨a, b, h1, h2⟩
        cases a with
        | nil => cases h1; exact .inr ⟨rfl, h2⟩
        | cons _ a => cases h1; exact .inl ⟨a, b, rfl, h2⟩
      · rintro (⟨a, b, h1, h2⟩ | ⟨rfl, h2⟩)
        · exact ⟨q :: a, b, by rw [h1]; rfl, h2⟩
        · exact ⟨[], l, rfl, h2⟩
    rw [List.filter_cons]
    by_cases hq : p q.1 = true
    · rw [if_pos hq, key, key, ih]
      constructor
      · rintro (⟨h1, h2⟩ | ⟨rfl, h2⟩)
        · exact ⟨h1, .inl h2⟩
        · refine ⟨hq, .inr ⟨rfl, fun r hr e => ?_⟩⟩
          exact h2 r (List.mem_filter.mpr ⟨hr, by rw [e]; exact hq⟩) e
      · rintro ⟨h1, h2 | ⟨rfl, h2⟩⟩
        · exact .inl ⟨h1, h2⟩
        · exact .inr ⟨rfl, fun r hr => h2 r (List.mem_of_mem_filter hr)⟩
    · rw [if_neg hq, key, ih]
      constructor
      · rintro ⟨h1, h2⟩; exact ⟨h1, .inl h2⟩
      · rintro ⟨h1, h2 | ⟨rfl, -⟩⟩
        · exact ⟨h1, h2⟩
        · exact absurd h1 hq

/-- **C57**: `get_resultcase_names` maps each load case that is asked for and has a name on the file
to the last name given to it, each once; if no number is named twice, in the order of the file. -/
theorem resultcase_names {d : Struc K} (ho : d.isOpen = true) (rescases : Option (List Int)) :
    (∀ rows, d.tdload = some rows → ∃ out, getResultcaseNames d rescases = .ok out ∧
      (out.map Prod.fst).Nodup ∧
      (∀ n t, (n, t) ∈ out ↔ Asked rescases n ∧ LastRow (rows.map fun r => (r.idno, r.name)) n t) ∧
      ((rows.map NameRow.idno).Nodup → out.Sublist (rows.map fun r => (r.idno, r.name)))) ∧
    (d.tdload = none → getResultcaseNames d rescases = .error .noSuchRecord) := by
  constructor
  · intro rows h
    unfold getResultcaseNames need
    rw [ho, h]
    simp only [if_true]
    cases rescases with
    | none =>
      refine ⟨_, rfl, pyDict_nodup _, fun n t => ?_, fun hn => ?_⟩
      · rw [pyDict_mem]; simp [Asked]
      · rw [pyDict_distinct]
        simpa [List.map_map, Function.comp_def] using hn
    | some l =>
      refine ⟨_, rfl, pyDict_nodup _, fun n t => ?_, fun hn => ?_⟩
      · rw [pyDict_mem]
        have := lastRow_filter (l := rows.map fun r => (r.idno, r.name)) (p := fun n => decide (n ∈ l))
          (g := n) (x := t)
        rw [List.filter_map] at this
        simpa [Asked, Function.comp_def] using this
      · rw [pyDict_distinct]
        · exact (List.filter_sublist).map _
        · rw [List.map_map]
          exact hn.sublist ((List.filter_sublist).map _)
  · intro h
    unfold getResultcaseNames need
    rw [ho, h]
    rfl

/-! ## cases -/

namespace Demo

/-- load case 3 is named twice -/
def named : Struc Int := { object with
  tdsetnam := some [⟨2, ['b']⟩, ⟨1, ['a']⟩],
  tdload := some [⟨3, ['x']⟩, ⟨5, ['y']⟩, ⟨3, ['z']⟩] }

example : getSetNames named = .ok (some [['b'], ['a']]) := (set_names (d := named) rfl).1 _ rfl
example : getResultcaseNames named none = .ok [(3, ['z']), (5, ['y'])] := by decide +kernel
example : getResultcaseNames named (some [5, 7]) = .ok [(5, ['y'])] := by decide +kernel
example := (resultcase_names (d := named) rfl none).1 _ rfl
example := (resultcase_names (d := named) rfl (some [5, 7])).1 _ rfl

end Demo

end Verif.Data
