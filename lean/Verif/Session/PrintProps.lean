import Verif.Session.Print
import Verif.Session.Closing
import Verif.Session.Demo
import Mathlib.Data.String.Basic
/-!
# Descriptions of files and data objects: property C68
-/

namespace Verif.Session
open Verif Verif.Seq Verif.Parse Verif.Conv Verif.Data Verif.Data.Life Verif.Data.Load

/-! ### specification -/

/-- what is said about group `p` -/
inductive Shown (h : H5) (p : Path) : String → Prop
  | hydro {a l} : h.groups p = some a → a.datatype = some "HYDRODYNAMIC" → a.level = some l →
      Shown h p "hydrodynamic data"
  | top {a} : h.groups p = some a → a.datatype = some "STRUCTURAL" → a.level = some "TOPLEVEL" →
      Shown h p "toplevel structural data"
  | inter {a} : h.groups p = some a → a.datatype = some "STRUCTURAL" →
      a.level = some "INTERLEVEL" → Shown h p "interlevel structural data"
  | first {a} : h.groups p = some a → a.datatype = some "STRUCTURAL" →
      a.level = some "FIRSTLEVEL" → Shown h p "firstlevel structural data"

/-- subgroups with a level hold structural data -/
def SubsStructural (h : H5) : Prop :=
  ∀ n m a l, h.groups [n, m] = some a → a.level = some l → l ≠ "" → a.datatype = some "STRUCTURAL"

/-- a line of the description of a File -/
def line (x : String × String) : String := "'" ++ x.1 ++ "': " ++ x.2 ++ "\n"

section
variable {K V : Type} [Field K] [LinearOrder K] {iter : H5 → List (String × List String)} {pi : K}
  {num : PyF → K} {cplx : PyF → PyF → V} {D : Dec} {B : Nat} {s : State} {f d : Nat} {h : H5}
  {p : Path} {c : Cls} {t : String}

/-- `lines` describes the groups and subgroups of `h`, in the order of their names -/
structure Describes (pi : K) (num : PyF → K) (cplx : PyF → PyF → V) (h : H5)
    (lines : List (String × String)) : Prop where
  increasing : (lines.map Prod.fst).Pairwise (· < ·)
  all : ∀ key text, (key, text) ∈ lines ↔
    (∃ c, ClassAt pi num cplx h key c ∧ Shown h [key] text) ∨
    ∃ n m c, SubAt h n m c ∧ key = n ++ "/" ++ m ∧ Shown h [n, m] text

/-! ### data objects -/

theorem Shown.unique {t' : String} (h1 : Shown h p t) (h2 : Shown h p t') : t = t' := by
  have n1 : ¬ ("HYDRODYNAMIC" : String) = "STRUCTURAL" := by decide
  have n2 : ¬ ("TOPLEVEL" : String) = "INTERLEVEL" := by decide
  have n3 : ¬ ("TOPLEVEL" : String) = "FIRSTLEVEL" := by decide
  have n4 : ¬ ("INTERLEVEL" : String) = "FIRSTLEVEL" := by decide
  cases h1 with
  | hydro a1 a2 a3 =>
    cases h2 with
    | hydro => rfl
    | top b1 b2 b3 => rw [a1] at b1; cases b1; rw [a2] at b2; exact absurd (Option.some.inj b2) n1
    | inter b1 b2 b3 => rw [a1] at b1; cases b1; rw [a2] at b2; exact absurd (Option.some.inj b2) n1
    | first b1 b2 b3 => rw [a1] at b1; cases b1; rw [a2] at b2; exact absurd (Option.some.inj b2) n1
  | top a1 a2 a3 =>
    cases h2 with
    | hydro b1 b2 b3 =>
      rw [a1] at b1; cases b1; rw [a2] at b2; exact absurd (Option.some.inj b2).symm n1
    | top => rfl
    | inter b1 b2 b3 => rw [a1] at b1; cases b1; rw [a3] at b3; exact absurd (Option.some.inj b3) n2
    | first b1 b2 b3 => rw [a1] at b1; cases b1; rw [a3] at b3; exact absurd (Option.some.inj b3) n3
  | inter a1 a2 a3 =>
    cases h2 with
    | hydro b1 b2 b3 =>
      rw [a1] at b1; cases b1; rw [a2] at b2; exact absurd (Option.some.inj b2).symm n1
    | top b1 b2 b3 =>
      rw [a1] at b1; cases b1; rw [a3] at b3; exact absurd (Option.some.inj b3).symm n2
    | inter => rfl
    | first b1 b2 b3 => rw [a1] at b1; cases b1; rw [a3] at b3; exact absurd (Option.some.inj b3) n4
  | first a1 a2 a3 =>
    cases h2 with
    | hydro b1 b2 b3 =>
      rw [a1] at b1; cases b1; rw [a2] at b2; exact absurd (Option.some.inj b2).symm n1
    | top b1 b2 b3 =>
      rw [a1] at b1; cases b1; rw [a3] at b3; exact absurd (Option.some.inj b3).symm n3
    | inter b1 b2 b3 =>
      rw [a1] at b1; cases b1; rw [a3] at b3; exact absurd (Option.some.inj b3).symm n4
    | first => rfl

/-- **C68** `str` of an open data object tells its level and kind of data. -/
theorem data_str (ho : IsObject s f d c h p) (hs : Shown h p t) : dataStr s d = .ok t := by
  obtain ⟨key, o, hd, -⟩ := ho.isOpen
  have n1 : ¬ ("STRUCTURAL" : String) = "HYDRODYNAMIC" := by decide
  unfold dataStr
  rw [hd]
  dsimp only
  rw [ho.group]
  have step : ∀ {a : Attrs} {dt lev : String}, h.groups p = some a → a.datatype = some dt →
      a.level = some lev →
      (do
        let x ← (Except.ok (h, p) : Except Err (H5 × Path))
        let a ← attr (x.1.groups x.2)
        let datatype ← attr a.datatype
        let level ← attr a.level
        if datatype = "HYDRODYNAMIC" then Except.ok (lower datatype ++ " data")
        else Except.ok (lower level ++ " " ++ lower datatype ++ " data")) =
      (if dt = "HYDRODYNAMIC" then Except.ok (lower dt ++ " data")
        else Except.ok (lower lev ++ " " ++ lower dt ++ " data") : Except Err String) := by
    intro a dt lev h1 h2 h3
    show (attr (h.groups p) >>= _) = _
    rw [h1]
    show (attr a.datatype >>= _) = _
    rw [h2]
    show (attr a.level >>= _) = _
    rw [h3]
    rfl
  cases hs with
  | hydro h1 h2 h3 =>
    rw [step h1 h2 h3, if_pos rfl]
    exact congrArg _ (by decide +kernel)
  | top h1 h2 h3 =>
    rw [step h1 h2 h3, if_neg n1]
    exact congrArg _ (by decide +kernel)
  | inter h1 h2 h3 =>
    rw [step h1 h2 h3, if_neg n1]
    exact congrArg _ (by decide +kernel)
  | first h1 h2 h3 =>
    rw [step h1 h2 h3, if_neg n1]
    exact congrArg _ (by decide +kernel)

/-- **C68** `repr` of an open data object tells the name of its group. -/
theorem data_repr {n : String} {q : Path} (ho : IsObject s f d c h (q ++ [n])) :
    dataRepr s d = .ok ("SifData(name=" ++ n ++ ")") := by
  obtain ⟨key, o, hd, -⟩ := ho.isOpen
  unfold dataRepr
  rw [hd]
  dsimp only
  rw [ho.group]
  show Except.ok ("SifData(name=" ++ (q ++ [n]).getLast?.getD "" ++ ")") = _
  simp

/-! ### sorting -/

theorem mem_insertItem {x y : String × Nat} {l : List (String × Nat)} :
    y ∈ insertItem x l ↔ y = x ∨ y ∈ l := by
  induction l with
  | nil => simp [insertItem]
  | cons z l ih =>
    unfold insertItem
    split
    · rw [List.mem_cons, ih, List.mem_cons]
      tauto
    · simp

theorem mem_sortItems {y : String × Nat} {l : List (String × Nat)} :
    y ∈ sortItems l ↔ y ∈ l := by
  induction l with
  | nil => simp [sortItems]
  | cons z l ih =>
    show y ∈ insertItem z (sortItems l) ↔ _
    rw [mem_insertItem, ih, List.mem_cons]

theorem insertItem_sorted {x : String × Nat} {l : List (String × Nat)}
    (h : (l.map Prod.fst).Pairwise (· < ·)) (hx : x.1 ∉ l.map Prod.fst) :
    ((insertItem x l).map Prod.fst).Pairwise (· < ·) := by
  induction l with
  | nil => simp [insertItem]
  | cons y l ih =>
    rw [List.map_cons, List.pairwise_cons] at h
    rw [List.map_cons, List.mem_cons, not_or] at hx
    unfold insertItem
    split
    · rename_i hlt
      rw [List.map_cons, List.pairwise_cons]
      refine ⟨?_, ih h.2 hx.2⟩
      intro k hk
      obtain ⟨z, hz, rfl⟩ := List.mem_map.mp hk
      rcases mem_insertItem.mp hz with rfl | hz
      · exact hlt
      · exact h.1 _ (List.mem_map.mpr ⟨z, hz, rfl⟩)
    · rename_i hlt
      have hxy : x.1 < y.1 := lt_of_le_of_ne (not_lt.mp hlt) hx.1
      rw [List.map_cons, List.pairwise_cons]
      refine ⟨?_, by rw [List.map_cons, List.pairwise_cons]; exact h⟩
      intro k hk
      rw [List.map_cons, List.mem_cons] at hk
      rcases hk with rfl | hk
      · exact hxy
      · exact hxy.trans (h.1 k hk)

theorem sortItems_sorted {l : List (String × Nat)} (h : (l.map Prod.fst).Nodup) :
    ((sortItems l).map Prod.fst).Pairwise (· < ·) := by
  induction l with
  | nil => exact List.Pairwise.nil
  | cons x l ih =>
    rw [List.map_cons, List.nodup_cons] at h
    refine insertItem_sorted (ih h.2) ?_
    intro hin
    obtain ⟨y, hy, e⟩ := List.mem_map.mp hin
    exact h.1 (List.mem_map.mpr ⟨y, mem_sortItems.mp hy, e⟩)

/-! ### files -/

/-- the items of a File and its groups -/
theorem HoldsFile.item (hold : HoldsFile pi num cplx s f h) {l : List (String × Nat)}
    (hl : Life.items s.life f = .ok l) (hn : (l.map Prod.fst).Nodup) {x : String × Nat} :
    x ∈ l ↔ (∃ c, ClassAt pi num cplx h x.1 c ∧ IsObject s f x.2 c h [x.1] ∧
        getItem s.life f x.1 = .ok x.2) ∨
      ∃ n m c, SubAt h n m c ∧ x.1 = n ++ "/" ++ m ∧ IsObject s f x.2 c h [n, m] ∧
        getItem s.life f x.1 = .ok x.2 := by
  have lk := lookups hl hn
  constructor
  · intro hx
    have hg := (lk.2.2.1 x.1 x.2 hx).1
    by_cases h1 : ∃ c, ClassAt pi num cplx h x.1 c
    · obtain ⟨c, hc⟩ := h1
      obtain ⟨d, g1, g2⟩ := hold.top x.1 c hc
      rw [hg] at g1
      injection g1 with g1
      exact .inl ⟨c, hc, by rw [g1]; exact g2, hg⟩
    by_cases h2 : ∃ n m c, SubAt h n m c ∧ x.1 = n ++ "/" ++ m
    · obtain ⟨n, m, c, hc, e⟩ := h2
      obtain ⟨d, g1, g2⟩ := hold.sub n m c hc
      rw [← e, hg] at g1
      injection g1 with g1
      exact .inr ⟨n, m, c, hc, e, by rw [g1]; exact g2, hg⟩
    · have := hold.only x.1 (fun n c hc e => h1 ⟨c, e ▸ hc⟩)
        (fun n m c hc e => h2 ⟨n, m, c, hc, e⟩)
      rw [hg] at this
      cases this
  · intro hx
    have hg : getItem s.life f x.1 = .ok x.2 := by
      rcases hx with ⟨_, _, _, hg⟩ | ⟨_, _, _, _, _, _, hg⟩ <;> exact hg
    by_contra hne
    by_cases hk : x.1 ∈ l.map (·.1)
    · obtain ⟨y, hy, e⟩ := List.mem_map.mp hk
      have := (lk.2.2.1 y.1 y.2 hy).1
      rw [e, hg] at this
      injection this with this
      exact hne (by
        have : x = y := Prod.ext e.symm this
        rw [this]
        exact hy)
    · rw [(lk.2.2.2 x.1 hk).1] at hg
      cases hg

theorem HoldsFile.items (hold : HoldsFile pi num cplx s f h) :
    ∃ l, Life.items s.life f = .ok l ∧ (l.map Prod.fst).Nodup := by
  obtain ⟨ks, hk, hn⟩ := hold.keys
  unfold Life.keys at hk
  cases hl : Life.items s.life f with
  | error e => rw [hl] at hk; cases hk
  | ok l =>
    rw [hl] at hk
    injection hk with hk
    exact ⟨l, rfl, by rw [hk]; exact hn⟩

theorem lines_of {l : List (String × Nat)}
    (hall : ∀ x ∈ l, ∃ t, dataStr s x.2 = .ok t) :
    ∃ lines : List (String × String),
      List.Forall₂ (fun x y => y.1 = x.1 ∧ dataStr s x.2 = .ok y.2) l lines ∧
      l.mapM (itemLine s) = .ok (lines.map line) := by
  induction l with
  | nil => exact ⟨[], .nil, rfl⟩
  | cons x l ih =>
    obtain ⟨t, ht⟩ := hall x (by simp)
    obtain ⟨ls, h1, h2⟩ := ih (fun y hy => hall y (by simp [hy]))
    refine ⟨(x.1, t) :: ls, .cons ⟨rfl, ht⟩ h1, ?_⟩
    have : itemLine s x = .ok (line (x.1, t)) := by
      unfold itemLine
      rw [ht]
      show Except.ok (reprName x.1 ++ ": " ++ t ++ "\n") = _
      refine congrArg _ ?_
      unfold reprName line
      rw [← String.toList_inj]
      simp
    rw [List.mapM_cons, this, h2]
    rfl

/-- **C68** `str` of an open File has one line for each of its objects, in the order of their
names. -/
theorem file_str (hold : HoldsFile pi num cplx s f h)
    (hsub : SubsStructural h) :
    ∃ lines, fileStr s f = .ok (String.join (lines.map line)) ∧ Describes pi num cplx h lines := by
  obtain ⟨l, hl, hn⟩ := hold.items
  have top : ∀ n c, ClassAt pi num cplx h n c → ∃ t, Shown h [n] t := by
    intro n c hc
    cases hc with
    | top h1 h2 h3 => exact ⟨_, .top h1 h2 h3⟩
    | first h1 h2 h3 => exact ⟨_, .first h1 h2 h3⟩
    | hydro h1 h2 h3 => exact ⟨_, .hydro h1 h2 h3⟩
  have sub : ∀ n m c, SubAt h n m c → ∃ t, Shown h [n, m] t := by
    intro n m c hc
    cases hc with
    | inter _ h2 h3 => exact ⟨_, .inter h2 (hsub _ _ _ _ h2 h3 (by decide)) h3⟩
    | first _ h2 h3 => exact ⟨_, .first h2 (hsub _ _ _ _ h2 h3 (by decide)) h3⟩
  have hall : ∀ x ∈ sortItems l, ∃ t, dataStr s x.2 = .ok t := by
    intro x hx
    rcases (hold.item hl hn).mp (mem_sortItems.mp hx) with ⟨c, hc, ho, -⟩ | ⟨n, m, c, hc, -, ho, -⟩
    · obtain ⟨t, ht⟩ := top _ _ hc
      exact ⟨t, data_str ho ht⟩
    · obtain ⟨t, ht⟩ := sub _ _ _ hc
      exact ⟨t, data_str ho ht⟩
  obtain ⟨lines, h1, h2⟩ := lines_of hall
  have hfst : lines.map Prod.fst = (sortItems l).map Prod.fst := by
    clear h2 hall
    generalize sortItems l = sl at h1
    induction h1 with
    | nil => rfl
    | cons hxy _ ih => rw [List.map_cons, List.map_cons, hxy.1, ih]
  have hmem : ∀ y, y ∈ lines ↔ ∃ d, (y.1, d) ∈ l ∧ dataStr s d = .ok y.2 := by
    intro y
    have : y ∈ lines ↔ ∃ d, (y.1, d) ∈ sortItems l ∧ dataStr s d = .ok y.2 := by
      constructor
      · intro hy
        clear h2 hall hfst
        generalize sortItems l = sl at *
        induction h1 with
        | nil => simp at hy
        | @cons x z _ _ hxy _ ih =>
          rcases List.mem_cons.mp hy with rfl | hy
          · exact ⟨x.2, by rw [hxy.1]; simp, hxy.2⟩
          · obtain ⟨d, d1, d2⟩ := ih hy
            exact ⟨d, List.mem_cons_of_mem _ d1, d2⟩
      · rintro ⟨d, d1, d2⟩
        clear h2 hall hfst
        generalize sortItems l = sl at *
        induction h1 with
        | nil => simp at d1
        | @cons x z _ _ hxy _ ih =>
          rcases List.mem_cons.mp d1 with e | d1
          · have e1 : y.1 = z.1 := by rw [hxy.1, ← e]
            have e2 : y.2 = z.2 := by
              have := hxy.2
              rw [← e, d2] at this
              injection this
            rw [show y = z from Prod.ext e1 e2]
            simp
          · exact List.mem_cons_of_mem _ (ih d1)
    rw [this]
    simp only [mem_sortItems]
  refine ⟨lines, ?_, ?_, ?_⟩
  · unfold fileStr
    rw [hl]
    show ((sortItems l).mapM (itemLine s) >>= _) = _
    rw [h2]
    rfl
  · rw [hfst]
    exact sortItems_sorted hn
  · intro key text
    rw [hmem]
    constructor
    · rintro ⟨d, d1, d2⟩
      rcases (hold.item hl hn).mp d1 with ⟨c, hc, ho, -⟩ | ⟨n, m, c, hc, e, ho, -⟩
      · obtain ⟨t, ht⟩ := top _ _ hc
        have := data_str ho ht
        rw [d2] at this
        injection this with this
        exact .inl ⟨c, hc, by rw [show text = t from this]; exact ht⟩
      · obtain ⟨t, ht⟩ := sub _ _ _ hc
        have := data_str ho ht
        rw [d2] at this
        injection this with this
        exact .inr ⟨n, m, c, hc, e, by rw [show text = t from this]; exact ht⟩
    · rintro (⟨c, hc, ht⟩ | ⟨n, m, c, hc, rfl, ht⟩)
      · obtain ⟨d, g1, g2⟩ := hold.top _ _ hc
        exact ⟨d, (hold.item hl hn).mpr (.inl ⟨c, hc, g2, g1⟩), data_str g2 ht⟩
      · obtain ⟨d, g1, g2⟩ := hold.sub _ _ _ hc
        exact ⟨d, (hold.item hl hn).mpr (.inr ⟨n, m, c, hc, rfl, g2, g1⟩), data_str g2 ht⟩

/-- **C68** `repr` of an open File with one group and no subgroups. -/
theorem file_repr_one (hold : HoldsFile pi num cplx s f h) {n : String}
    (hc : ClassAt pi num cplx h n c) (hone : ∀ n' c', ClassAt pi num cplx h n' c' → n' = n)
    (hsub : ∀ n m c, ¬ SubAt h n m c) :
    fileRepr s f = .ok ("SifData(name=" ++ n ++ ")\n") := by
  obtain ⟨l, hl, hn⟩ := hold.items
  obtain ⟨d, g1, g2⟩ := hold.top _ _ hc
  have hd : (n, d) ∈ l := (hold.item hl hn).mpr (.inl ⟨c, hc, g2, g1⟩)
  have hall : ∀ x ∈ l, x.1 = n := by
    intro x hx
    rcases (hold.item hl hn).mp hx with ⟨c', hc', -⟩ | ⟨n', m', c', hc', -⟩
    · exact hone _ _ hc'
    · exact absurd hc' (hsub _ _ _)
  have hlist : l = [(n, d)] := by
    match l, hd, hn, hall with
    | [x], hd, _, _ => rw [List.mem_singleton.mp hd]
    | x :: y :: _, _, hn, hall =>
      rw [List.map_cons, List.map_cons, List.nodup_cons, hall x (by simp), hall y (by simp)] at hn
      exact absurd (by simp) hn.1
  subst hlist
  unfold fileRepr
  rw [hl]
  show (dataRepr s d >>= _) = _
  rw [data_repr (q := []) g2]
  show Except.ok ("SifData(name=" ++ n ++ ")" ++ "\n") = _
  refine congrArg _ ?_
  rw [← String.toList_inj]
  simp

/-- **C68** `repr` of an open File without groups is empty. -/
theorem file_repr_none (hold : HoldsFile pi num cplx s f h)
    (htop : ∀ n c, ¬ ClassAt pi num cplx h n c) (hsub : ∀ n m c, ¬ SubAt h n m c) :
    fileRepr s f = .ok "" ∧ fileStr s f = .ok "" := by
  obtain ⟨l, hl, hn⟩ := hold.items
  have : l = [] := by
    match l, hl, hn with
    | [], _, _ => rfl
    | x :: l, hl, hn =>
      rcases (hold.item hl hn (x := x)).mp (by simp) with ⟨c, hc, -⟩ | ⟨n, m, c, hc, -⟩
      · exact absurd hc (htop _ _)
      · exact absurd hc (hsub _ _ _)
  subst this
  constructor
  · unfold fileRepr
    rw [hl]
  · unfold fileStr
    rw [hl]
    rfl

/-- **C68** `repr` of an open File with two or more objects raises `TypeError`. -/
theorem file_repr_many (hold : HoldsFile pi num cplx s f h) {k1 k2 : String} {d1 d2 : Nat}
    (h1 : getItem s.life f k1 = .ok d1) (h2 : getItem s.life f k2 = .ok d2) (hne : k1 ≠ k2) :
    fileRepr s f = .error .typeError := by
  obtain ⟨l, hl, hn⟩ := hold.items
  have lk := (lookups hl hn).2.2.2
  have m1 : k1 ∈ l.map (·.1) := by
    by_contra hk
    rw [(lk k1 hk).1] at h1
    cases h1
  have m2 : k2 ∈ l.map (·.1) := by
    by_contra hk
    rw [(lk k2 hk).1] at h2
    cases h2
  unfold fileRepr
  rw [hl]
  match l, m1, m2 with
  | [x], m1, m2 =>
    simp only [List.map_cons, List.map_nil, List.mem_singleton] at m1 m2
    exact absurd (m1.trans m2.symm) hne
  | x :: y :: _, _, _ => rfl

/-- **C68** After `close`, a File and its objects say that they are closed, whatever is called
afterwards. -/
theorem closed_str (hs : Reachable iter pi num cplx D B s) {g : Nat}
    {lst : List (String × Nat)} (hl : Life.items s.life g = .ok lst) {s' : State}
    (hst : Steps iter pi num cplx D B (closeFile s g) s') :
    fileStr s' g = .ok "<Closed File object>" ∧ fileRepr s' g = .ok "<Closed File object>" ∧
    ∀ x ∈ lst, dataStr s' x.2 = .ok "<Closed SifData object>" ∧
      dataRepr s' x.2 = .ok "<Closed SifData object>" := by
  have hr : Reachable iter pi num cplx D B (closeFile s g) := .step hs (.closeFile s g)
  have kp := kept_steps hr hst
  have hf : (closeFile s g).life.files[g]? = some .closed := by
    unfold Life.items at hl
    split at hl
    · rename_i l k hk
      show (Life.closeFile s.life g).files[g]? = _
      unfold Life.closeFile
      rw [hk]
      dsimp only
      rw [List.getElem?_set_self (List.getElem?_eq_some_iff.mp hk).1]
    · cases hl
  have hf' : s'.life.files[g]? = some .closed := by
    rcases kp.files g _ hf with h | h <;> exact h
  have hi : Life.items s'.life g = .error .closedFile := by
    unfold Life.items
    rw [hf']
  refine ⟨by unfold fileStr; rw [hi], by unfold fileRepr; rw [hi], ?_⟩
  intro x hx
  have hd : (closeFile s g).life.datas[x.2]? = some .closed := by
    obtain ⟨-, h2, -⟩ := closed_forever (inv_of hs).life hl (.refl _)
    have h3 := (open_file (inv_of hs).life hl).1 x hx
    have h4 := h2 x hx
    unfold dataOpen at h3 h4
    show (Life.closeFile s.life g).datas[x.2]? = _
    cases hy : s.life.datas[x.2]? with
    | none => rw [hy] at h3; cases h3
    | some y =>
      rcases (kept_closeFile s g).datas x.2 y hy with h5 | h5
      · rw [hy] at h3
        cases y with
        | closed => cases h3
        | opened c q o =>
          have h6 : (Life.closeFile s.life g).datas[x.2]? = some (.opened c q o) := h5
          rw [h6] at h4
          cases h4
      · exact h5
  have hd' : s'.life.datas[x.2]? = some .closed := by
    rcases kp.datas x.2 _ hd with h | h <;> exact h
  exact ⟨by unfold dataStr; rw [hd'], by unfold dataRepr; rw [hd']⟩

/-! ### converted files -/

theorem low_structural {outs : List Added} {pre ft : String} {topSel : Int} {idx : Option Int}
    {hp : Path} {hrec : List Cell} {lev dt : String} {ix : Option (Option Int)}
    (hc : Classified outs (.low pre ft topSel idx hp hrec) lev dt ix) (hne : lev ≠ "") :
    dt = "STRUCTURAL" := by
  cases hc with
  | resLow => rfl
  | modInter => rfl
  | modFirst => rfl
  | hydro => exact absurd rfl hne
  | other => exact absurd rfl hne

/-- the lower level files of a hierarchy hold structural data -/
theorem lower_structural {only : Option (List String)} {disk : Str → Option Bytes}
    {dir fp ext : Str} {formatted : Bool} {pre ft : String} {topSel : Int} {hp : Path}
    {all rows : List (List Cell)} {h h' : H5} {ms : List Str}
    (hl : LowerFiles D only disk dir fp ext formatted pre ft topSel hp all rows h h' ms)
    (htop : ∃ a, h.groups [pre ++ ft ++ toString topSel] = some a) (hs : SubsStructural h) :
    SubsStructural h' := by
  induction hl with
  | nil => exact hs
  | skip _ _ ih => exact ih htop hs
  | missing _ _ _ ih => exact ih htop hs
  | @file row rows h h' ms name k b hrec idx sk f outs names s lev dt ix h1 _ _ _ _ _ j c _ ih =>
    have ht := low_same c htop (q := [pre ++ ft ++ toString topSel]) (by simp [Place.path]) (by simp)
    refine ih (by rw [ht.1]; exact htop) ?_
    intro n m a l ha hl hne
    by_cases hm : [n, m] = (Place.low pre ft topSel idx hp hrec).path s
    · obtain ⟨recs, -, hg, -⟩ := c.groups
      rw [← hm, ha] at hg
      injection hg with hg
      subst hg
      injection hl with hl
      subst hl
      exact congrArg some (low_structural j.classified hne)
    · rw [(low_same c htop hm (by simp)).1] at ha
      exact hs n m a l ha hl hne

/-- **C68** In a converted hierarchy the subgroups hold structural data, so that `file_str`
applies. -/
theorem converted_structural {w : Conv.World} {filename dir fname fp : Str} {l : Char}
    {no ext : Str} {b : Bytes} {pre : Str} {f : List LRec} {names : List String} {t : Int}
    {n lev dt : String} {h0 h1 h2 : H5} {ms : List Str}
    (F : SesamFile D w filename dir fname fp l no ext b pre f names t n lev dt h0 h1 h2 ms)
    (h0s : SubsStructural h0) : SubsStructural h2 := by
  obtain ⟨a, ha, -⟩ := F.top_group
  obtain ⟨sk, outs, ix, henc, j, c, hw⟩ := F.records
  have h1s : SubsStructural h1 := by
    intro n' m a' l' hg
    rw [(top_same c (q := [n', m]) (by simp) (by simp)).1] at hg
    exact h0s n' m a' l' hg
  cases hw with
  | alone => exact h1s
  | lower _ _ hl => exact lower_structural hl (by rw [← F.group]; exact ⟨a, ha⟩) h1s

theorem empty_structural : SubsStructural {} := fun _ _ _ _ h => by cases h

end
end Verif.Session

namespace Verif.Session.Demo
open Verif Verif.Seq
open Verif.Parse hiding num
open Verif.Conv Verif.Data Verif.Data.Life Verif.Data.Load Verif.Session
open Verif.Data.Load.HydroDemo (num cplx)

/-- a model of two levels: the description has the two lines, `repr` raises an error, after closing
the File says so -/
example : ∃ s' d, openSif iter 3 num cplx Dec.std 10000 start "T9.FEM".toList = (s', .ok d) ∧
    dataStr s' d = .ok "toplevel structural data" ∧ dataRepr s' d = .ok "SifData(name=T9)" ∧
    fileStr s' 0 = .ok "'T9': toplevel structural data\n'T9/T5': firstlevel structural data\n" ∧
    fileRepr s' 0 = .error .typeError ∧
    fileStr (closeFile s' 0) 0 = .ok "<Closed File object>" := by
  obtain ⟨h1, h2, F, hi, ⟨b, b1, b2⟩, hit, -⟩ := two'
  obtain ⟨s', d, o, q1, q2, q3, -, q4⟩ := open_sif_top reach F (stem := "T9.".toList)
    (e3 := "FEM".toList) rfl rfl (by decide) hi (by decide +kernel)
  have r' : Reachable iter (3 : Rat) num cplx Dec.std 10000 s' := by
    have := Reachable.step reach (.openSif start "T9.FEM".toList)
    rw [q1] at this
    exact this
  obtain ⟨a, a1, a2, a3⟩ := F.top_group
  have e2 : h2.groups ["T9"] = some a := by rw [F.same.1.1]; exact a1
  obtain ⟨lines, l1, l2⟩ := file_str q2.holds (converted_structural F empty_structural)
  have hb := converted_structural F empty_structural _ _ _ _ b1 b2 (by decide)
  have c9 : ClassAt (3 : Rat) num cplx h2 "T9" .top := .top e2 a3 a2
  have c5 : SubAt h2 "T9" "T5" .first := .first e2 b1 b2
  have key : ∀ x, x ∈ lines ↔ x = ("T9", "toplevel structural data") ∨
      x = ("T9/T5", "firstlevel structural data") := by
    rintro ⟨k, tx⟩
    rw [l2.all]
    constructor
    · rintro (⟨c, hc, hs⟩ | ⟨n, m, c, hc, rfl, hs⟩)
      · left
        have hk : k = "T9" := by
          have : k ∈ (iter h2).map Prod.fst := (hi.groups k).mpr (by cases hc <;> exact ⟨_, ‹_›⟩)
          rw [hit] at this
          simpa using this
        subst hk
        rw [hs.unique (.top e2 a3 a2)]
      · right
        have hk : n = "T9" := by
          have : n ∈ (iter h2).map Prod.fst := (hi.groups n).mpr (by cases hc <;> exact ⟨_, ‹_›⟩)
          rw [hit] at this
          simpa using this
        subst hk
        have hm : m = "T5" := by
          have := ((hi.subs ("T9", ["T5"]) (by rw [hit]; simp)).2 m).mpr
            (by cases hc <;> exact ⟨_, ‹_›⟩)
          simpa using this
        subst hm
        rw [hs.unique (.first b1 hb b2)]
        exact Prod.ext (by decide) rfl
    · rintro (e | e)
      · injection e with e e'
        subst e e'
        exact .inl ⟨_, c9, .top e2 a3 a2⟩
      · injection e with e e'
        subst e e'
        exact .inr ⟨"T9", "T5", _, c5, by decide, .first b1 hb b2⟩
  have hlines : lines = [("T9", "toplevel structural data"),
      ("T9/T5", "firstlevel structural data")] := by
    have hinc := l2.increasing
    have lt : "T9" < "T9/T5" := by decide +kernel
    have m1 := (key ("T9", "toplevel structural data")).mpr (.inl rfl)
    have m2 := (key ("T9/T5", "firstlevel structural data")).mpr (.inr rfl)
    match lines, hinc, key, m1, m2 with
    | [x], _, _, m1, m2 =>
      rw [List.mem_singleton] at m1 m2
      rw [← m1] at m2
      exact absurd (congrArg Prod.fst m2) (by decide)
    | x :: y :: l, hinc, key, m1, m2 =>
      simp only [List.map_cons, List.pairwise_cons] at hinc
      have hx := (key x).mp (by simp)
      have hy := (key y).mp (by simp)
      have hxy := hinc.1 y.1 (by simp)
      have ex : x = ("T9", "toplevel structural data") := by
        rcases hx with hx | hx
        · exact hx
        · rcases hy with hy | hy
          · rw [hx, hy] at hxy; exact absurd (hxy.trans lt) (lt_irrefl _)
          · rw [hx, hy] at hxy; exact absurd hxy (lt_irrefl _)
      have ey : y = ("T9/T5", "firstlevel structural data") := by
        rcases hy with hy | hy
        · rw [ex, hy] at hxy; exact absurd hxy (lt_irrefl _)
        · exact hy
      match l, hinc, key with
      | [], _, _ => rw [ex, ey]
      | z :: l, hinc, key =>
        have h1 := hinc.1 z.1 (by simp)
        have h2 := hinc.2.1 z.1 (by simp)
        rcases (key z).mp (by simp) with hz | hz
        · rw [ex, hz] at h1; exact absurd h1 (lt_irrefl _)
        · rw [ey, hz] at h2; exact absurd h2 (lt_irrefl _)
  obtain ⟨d9, k9, -⟩ := q2.holds.top _ _ c9
  obtain ⟨d5, k5, -⟩ := q2.holds.sub _ _ _ c5
  obtain ⟨lst, hl, -⟩ := q2.holds.items
  refine ⟨s', d, q1, data_str q3 (.top e2 a3 a2), data_repr (q := []) q3, ?_,
    file_repr_many q2.holds k9 k5 (by decide), (closed_str r' hl (.refl _)).1⟩
  rw [hlines] at l1
  refine l1.trans (congrArg _ ?_)
  decide +kernel

/-- one object -/
example : ∃ s' d, openSif iter 3 num cplx Dec.std 10000 start "T5.FEM".toList = (s', .ok d) ∧
    dataStr s' d = .ok "firstlevel structural data" ∧
    fileRepr s' 0 = .ok "SifData(name=T5)\n" := by
  obtain ⟨h1, F, hi⟩ := first
  obtain ⟨s', d, o, q1, q2, q3, -⟩ := open_sif_first reach F (stem := "T5.".toList)
    (e3 := "FEM".toList) rfl rfl (by decide) hi (by decide +kernel)
  obtain ⟨a, a1, a2, a3⟩ := F.top_group
  have c5 : ClassAt (3 : Rat) num cplx h1 "T5" .first := .first a1 a3 a2
  obtain ⟨sk, outs, ix, -, -, c, hw⟩ := F.records
  have only : ∀ q, q ≠ ["T5"] → q ≠ [] → h1.groups q = none := by
    intro q hq hne
    exact (top_same c (q := q) (by rw [← F.group]; exact hq) hne).1
  refine ⟨s', d, q1, data_str q3 (.first a1 a3 a2), ?_⟩
  refine (file_repr_one q2.holds c5 ?_ ?_).trans (congrArg _ (by decide))
  · intro n' c' hc'
    by_contra hne
    have := only [n'] (by simpa using hne) (by simp)
    cases hc' <;> simp_all
  · intro n m c hc
    have := only [n, m] (by simp) (by simp)
    cases hc <;> simp_all

end Verif.Session.Demo
