import Verif.Data.LifeProps
/-!
# C54: what a File holds
-/

namespace Verif.Data.Life
open Verif Verif.Data

/-! ## Specification -/

/-- an object the dict of a File should hold: key, class, and the key of the parent group -/
structure Entry where
  name : String
  cls : Cls
  parent : Option String := none

/-- the class a group asks for by its attributes -/
inductive IsClass : GroupDesc → Cls → Prop
  | top {g : GroupDesc} : g.datatype = "STRUCTURAL" → g.level = "TOPLEVEL" → IsClass g .top
  | first {g : GroupDesc} : g.datatype = "STRUCTURAL" → g.level = "FIRSTLEVEL" → IsClass g .first
  | hydro {g : GroupDesc} : g.datatype = "HYDRODYNAMIC" → g.hydroInit = .ok () → IsClass g .hydro

/-- the subgroups of a group which are superelements, in order -/
inductive SubListing (g : String) : List (String × String) → List Entry → Prop
  | nil : SubListing g [] []
  | inter {n : String} {rest : List (String × String)} {es : List Entry} : SubListing g rest es →
      SubListing g ((n, "INTERLEVEL") :: rest) ({ name := g ++ "/" ++ n, cls := .inter, parent := some g } :: es)
  | first {n : String} {rest : List (String × String)} {es : List Entry} : SubListing g rest es →
      SubListing g ((n, "FIRSTLEVEL") :: rest) ({ name := g ++ "/" ++ n, cls := .first, parent := some g } :: es)
  | other {n l : String} {rest : List (String × String)} {es : List Entry} : l ≠ "INTERLEVEL" →
      l ≠ "FIRSTLEVEL" → SubListing g rest es → SubListing g ((n, l) :: rest) es

/-- all objects of a file, in order -/
inductive Listing : List GroupDesc → List Entry → Prop
  | nil : Listing [] []
  | group {g : GroupDesc} {c : Cls} {rest : List GroupDesc} {es es' : List Entry} : IsClass g c →
      SubListing g.name g.subs es → Listing rest es' →
      Listing (g :: rest) ({ name := g.name, cls := c } :: es ++ es')

/-- the attribute `file` of the object of an entry -/
def OwnerOk (f : Nat) (l : List (String × Nat)) (e : Entry) (o : Owner) : Prop :=
  match e.parent with
  | none => o = .file f
  | some n => ∃ d, (n, d) ∈ l ∧ o = .data d

/-! ## Proofs -/

structure Agrees (f base : Nat) (es : List Entry) (b : Build) : Prop where
  all : List.Forall₂ (fun (e : Entry) (p : String × Nat) => p.1 = e.name ∧ ∃ k o, p.2 = base + k ∧
    b.made[k]? = some (.opened e.cls e.name o) ∧ OwnerOk f b.items e o) es b.items
  ids : b.items.map (·.2) = (List.range b.made.length).map (base + ·)

theorem ownerOk_append {f : Nat} {l r : List (String × Nat)} {e : Entry} {o : Owner}
    (h : OwnerOk f l e o) : OwnerOk f (l ++ r) e o := by
  unfold OwnerOk at *
  cases he : e.parent with
  | none => rw [he] at h; exact h
  | some n =>
    rw [he] at h
    obtain ⟨d, h1, h2⟩ := h
    exact ⟨d, List.mem_append.2 (Or.inl h1), h2⟩

theorem forall₂_snoc {α β : Type} {R : α → β → Prop} {l : List α} {r : List β} {a : α} {b : β}
    (h : List.Forall₂ R l r) (hab : R a b) : List.Forall₂ R (l ++ [a]) (r ++ [b]) := by
  induction h with
  | nil => exact .cons hab .nil
  | cons h _ ih => exact .cons h ih

theorem agrees_snoc {f base : Nat} {es : List Entry} {b : Build} {e : Entry} {o : Owner}
    {dat : Option Nat} (h : Agrees f base es b)
    (ho : OwnerOk f b.items e o) :
    Agrees f base (es ++ [e])
      { made := b.made ++ [.opened e.cls e.name o]
        items := b.items ++ [(e.name, base + b.made.length)]
        data := dat } := by
  constructor
  · refine forall₂_snoc (h.all.imp ?_) ⟨rfl, b.made.length, o, rfl, by simp, ownerOk_append ho⟩
    rintro e' p ⟨h1, k, o', h2, h3, h4⟩
    exact ⟨h1, k, o', h2, get_snoc h3, ownerOk_append h4⟩
  · show (b.items ++ _).map (·.2) = _
    rw [List.map_append, h.ids, List.length_append, List.length_singleton, List.range_succ,
      List.map_append]
    rfl

theorem agrees_subs {f base d : Nat} {g : String} {subs : List (String × String)} {es' : List Entry}
    (hs : SubListing g subs es') : ∀ {es : List Entry} {b : Build}, Agrees f base es b →
    (g, d) ∈ b.items → Agrees f base (es ++ es') (addSubs base g d subs b) := by
  induction hs with
  | nil =>
    intro es b h _
    rw [List.append_nil]
    exact h
  | @inter n rest es2 hs ih =>
    intro es b h hin
    have h2 := agrees_snoc (e := { name := g ++ "/" ++ n, cls := .inter, parent := some g })
      (o := .data d) (dat := b.data) h ⟨d, hin, rfl⟩
    have := ih h2 (List.mem_append.2 (Or.inl hin))
    rw [List.append_assoc] at this
    exact this
  | @first n rest es2 hs ih =>
    intro es b h hin
    have h2 := agrees_snoc (e := { name := g ++ "/" ++ n, cls := .first, parent := some g })
      (o := .data d) (dat := b.data) h ⟨d, hin, rfl⟩
    have := ih h2 (List.mem_append.2 (Or.inl hin))
    rw [List.append_assoc] at this
    exact this
  | @other n l rest es2 h1 h2 hs ih =>
    intro es b h hin
    have e : subClass l = none := by
      unfold subClass
      rw [if_neg h1, if_neg h2]
    unfold addSubs
    rw [e]
    exact ih h hin

theorem classOf_of {g : GroupDesc} {c : Cls} (h : IsClass g c) : classOf g = .ok (some c) := by
  have hne : ¬ ("HYDRODYNAMIC" : String) = "STRUCTURAL" := by decide
  have hne2 : ¬ ("FIRSTLEVEL" : String) = "TOPLEVEL" := by decide
  unfold classOf
  cases h with
  | top h1 h2 => rw [if_pos h1, if_pos h2]
  | first h1 h2 => rw [if_pos h1, h2, if_neg hne2, if_pos rfl]
  | hydro h1 h2 => rw [h1, if_neg hne, if_pos rfl, h2]

theorem addGroups_known {f base : Nat} {g : GroupDesc} {c : Cls} (rest : List GroupDesc) (b : Build)
    (h : IsClass g c) : addGroups f base (g :: rest) b =
      addGroups f base rest (addSubs base g.name (base + b.made.length) g.subs
        { made := b.made ++ [.opened c g.name (.file f)]
          items := b.items ++ [(g.name, base + b.made.length)]
          data := some (base + b.made.length) }) := by
  conv => lhs; unfold addGroups
  rw [classOf_of h]
  rfl

theorem addSubs_data (base : Nat) (g : String) (d : Nat) (subs : List (String × String)) (b : Build) :
    (addSubs base g d subs b).data = b.data := by
  induction subs generalizing b with
  | nil => rfl
  | cons s rest ih =>
    obtain ⟨n, l⟩ := s
    unfold addSubs
    split
    · rw [ih]
    · rw [ih]

theorem addSubs_mem (base : Nat) (g : String) (d : Nat) (subs : List (String × String)) (b : Build)
    {p : String × Nat} (hp : p ∈ b.items) : p ∈ (addSubs base g d subs b).items := by
  induction subs generalizing b with
  | nil => exact hp
  | cons s rest ih =>
    obtain ⟨n, l⟩ := s
    unfold addSubs
    split
    · exact ih _ (List.mem_append.2 (Or.inl hp))
    · exact ih _ hp

theorem agrees_groups {f base : Nat} {gs : List GroupDesc} {es' : List Entry} (hl : Listing gs es') :
    ∀ {es : List Entry} {b : Build}, Agrees f base es b →
      ∃ b', addGroups f base gs b = .ok b' ∧ Agrees f base (es ++ es') b' ∧
        (gs = [] → b' = b) ∧
        ∀ g, gs.getLast? = some g → ∃ d, b'.data = some d ∧ (g.name, d) ∈ b'.items := by
  induction hl with
  | nil =>
    intro es b h
    refine ⟨b, rfl, ?_, fun _ => rfl, ?_⟩
    · rw [List.append_nil]; exact h
    · intro g hg; cases hg
  | @group g c rest es1 es2 hc hs hr ih =>
    intro es b h
    have h1 := agrees_snoc (e := { name := g.name, cls := c }) (o := .file f)
      (dat := some (base + b.made.length)) h rfl
    have hin : (g.name, base + b.made.length) ∈ b.items ++ [(g.name, base + b.made.length)] := by simp
    have h2 := agrees_subs hs h1 hin
    obtain ⟨b', e, h3, h4, h5⟩ := ih h2
    refine ⟨b', ?_, ?_, ?_, ?_⟩
    · rw [addGroups_known rest b hc]; exact e
    · have e2 : es ++ ({ name := g.name, cls := c } :: es1 ++ es2) =
          es ++ [{ name := g.name, cls := c }] ++ es1 ++ es2 := by simp
      rw [e2]
      exact h3
    · intro hx; cases hx
    · intro g' hg'
      cases hr' : rest with
      | nil =>
        rw [hr'] at hg'
        injection hg' with hg'
        subst hg'
        rw [h4 hr', addSubs_data]
        exact ⟨_, rfl, addSubs_mem _ _ _ _ _ hin⟩
      | cons a t =>
        rw [hr', List.getLast?_cons_cons] at hg'
        rw [hr'] at h5
        exact h5 g' hg'

theorem agrees_empty (f base : Nat) : Agrees f base [] {} := ⟨.nil, rfl⟩

/-- what the world looks like after opening a file holding the objects `es` -/
structure Opened (w w' : World) (f : Nat) (es : List Entry) (l : List (String × Nat)) : Prop where
  items : items w' f = .ok l
  all : List.Forall₂ (fun (e : Entry) (p : String × Nat) => p.1 = e.name ∧
    ∃ o, w'.datas[p.2]? = some (.opened e.cls e.name o) ∧ OwnerOk f l e o) es l
  distinct : (l.map (·.2)).Nodup
  fresh : ∀ p ∈ l, w.datas.length ≤ p.2
  registered : w'.registry = w.registry ++ [f]
  files : ∀ g : Nat, g < w.files.length → w'.files[g]? = w.files[g]?
  datas : ∀ d : Nat, d < w.datas.length → w'.datas[d]? = w.datas[d]?

/-- **Opening a file**: if the attributes of every group name a class, the File holds for each
group, and each subgroup that is a superelement, exactly one new data object: under its name (or
'parent/child'), of its class, reading its group, and linked to the File or its parent.  The
objects made before are untouched. -/
theorem open_holds_partial (w : World) {gs : List GroupDesc} {es : List Entry} (h : Listing gs es) :
    ∃ w' l, openFile w gs = (w', .ok w.files.length) ∧ Opened w w' w.files.length es l := by
  obtain ⟨b, hb, hag, _, _⟩ := agrees_groups h (agrees_empty w.files.length w.datas.length)
  rw [List.nil_append] at hag
  refine ⟨{ files := w.files ++ [.opened b.items w.handles.length],
             datas := w.datas ++ b.made,
             handles := w.handles ++ [true],
             registry := w.registry ++ [w.files.length] }, b.items, ?_, ?_⟩
  · unfold openFile
    rw [hb]
  · refine ⟨?_, ?_, ?_, ?_, rfl, ?_, ?_⟩
    · unfold items
      simp
    · refine hag.all.imp ?_
      rintro e p ⟨h1, k, o, h2, h3, h4⟩
      refine ⟨h1, o, ?_, h4⟩
      rw [h2, get_append_right]
      exact h3
    · rw [hag.ids]
      refine List.Nodup.map ?_ List.nodup_range
      intro a b' hab
      exact Nat.add_left_cancel hab
    · intro p hp
      have : p.2 ∈ b.items.map (·.2) := List.mem_map.2 ⟨p, hp, rfl⟩
      rw [hag.ids] at this
      obtain ⟨k, _, e⟩ := List.mem_map.1 this
      have e' : w.datas.length + k = p.2 := e
      omega
    · intro g hg
      exact List.getElem?_append_left hg
    · intro d hd
      exact List.getElem?_append_left hd

/-- **Look-ups**: on an open file `keys`, `values`, `items`, `[]`, `get` and `in` agree with one
mapping; a missing key raises `KeyError`, gives `None`, gives `False`. -/
theorem lookups {w : World} {f : Nat} {l : List (String × Nat)} (hl : items w f = .ok l)
    (hn : (l.map (·.1)).Nodup) :
    keys w f = .ok (l.map (·.1)) ∧ values w f = .ok (l.map (·.2)) ∧
    (∀ name d, (name, d) ∈ l → getItem w f name = .ok d ∧ get w f name = .ok (some d) ∧
      contains w f name = .ok true) ∧
    ∀ name, name ∉ l.map (·.1) → getItem w f name = .error .keyError ∧
      get w f name = .ok none ∧ contains w f name = .ok false := by
  have hfind : ∀ name d, (name, d) ∈ l → l.find? (fun p => p.1 = name) = some (name, d) := by
    clear hl
    induction l with
    | nil => intro name d h; cases h
    | cons a l ih =>
      intro name d h
      rw [List.map_cons, List.nodup_cons] at hn
      rcases List.mem_cons.1 h with h | h
      · subst h
        simp
      · have hne : ¬ a.1 = name := by
          intro e
          apply hn.1
          rw [e]
          exact List.mem_map.2 ⟨_, h, rfl⟩
        rw [List.find?_cons_of_neg (by simpa using hne)]
        exact ih hn.2 name d h
  refine ⟨?_, ?_, ?_, ?_⟩
  · unfold keys; rw [hl]; rfl
  · unfold values; rw [hl]; rfl
  · intro name d h
    refine ⟨?_, ?_, ?_⟩
    · unfold getItem
      rw [hl]
      show (match l.find? (fun p => p.1 = name) with | some p => Except.ok p.2 | none => _) = _
      rw [hfind name d h]
    · unfold get
      rw [hl]
      show Except.ok ((l.find? (fun p => p.1 = name)).map (·.2)) = _
      rw [hfind name d h]
      rfl
    · unfold contains
      rw [hl]
      refine congrArg Except.ok ?_
      rw [List.any_eq_true]
      exact ⟨_, h, by simp⟩
  · intro name h
    have hnone : l.find? (fun p => p.1 = name) = none := by
      rw [List.find?_eq_none]
      intro p hp e
      apply h
      have e' : p.1 = name := by simpa using e
      exact List.mem_map.2 ⟨p, hp, e'⟩
    refine ⟨?_, ?_, ?_⟩
    · unfold getItem
      rw [hl]
      show (match l.find? (fun p => p.1 = name) with | some p => Except.ok p.2 | none => _) = _
      rw [hnone]
    · unfold get
      rw [hl]
      show Except.ok ((l.find? (fun p => p.1 = name)).map (·.2)) = _
      rw [hnone]
      rfl
    · unfold contains
      rw [hl]
      refine congrArg Except.ok ?_
      rw [List.any_eq_false]
      intro p hp e
      apply h
      have e' : p.1 = name := by simpa using e
      exact List.mem_map.2 ⟨p, hp, e'⟩

theorem forall₂_names {l : List (String × Nat)} {es : List Entry} {P : Entry → String × Nat → Prop}
    (h : List.Forall₂ (fun e p => p.1 = e.name ∧ P e p) es l) : l.map (·.1) = es.map (·.name) := by
  induction h with
  | nil => rfl
  | cons h _ ih => rw [List.map_cons, List.map_cons, ih, h.1]

/-- **`f[name]`** on a freshly opened file whose names are distinct: the object of that name, class
and group. -/
theorem open_lookup {w w' : World} {f : Nat} {es : List Entry} {l : List (String × Nat)}
    (h : Opened w w' f es l) (hn : (es.map (·.name)).Nodup) {e : Entry} (he : e ∈ es) :
    ∃ d, getItem w' f e.name = .ok d ∧ dataOpen w' d = true ∧
      match e.parent with
      | none => w'.datas[d]? = some (.opened e.cls e.name (.file f))
      | some n => ∃ d', getItem w' f n = .ok d' ∧
          w'.datas[d]? = some (.opened e.cls e.name (.data d')) := by
  have hk : (l.map (·.1)).Nodup := by rw [forall₂_names h.all]; exact hn
  have hlook := lookups h.items hk
  have key : ∀ (es : List Entry) (l' : List (String × Nat)) {P : Entry → String × Nat → Prop},
      List.Forall₂ P es l' → e ∈ es → ∃ p ∈ l', P e p := by
    intro es l' P h
    induction h with
    | nil => intro h; cases h
    | cons h _ ih =>
      intro hm
      rcases List.mem_cons.1 hm with rfl | hm
      · exact ⟨_, List.mem_cons_self, h⟩
      · obtain ⟨p, hp, hP⟩ := ih hm
        exact ⟨p, List.mem_cons_of_mem _ hp, hP⟩
  obtain ⟨p, hp, h1, o, h2, h3⟩ := key es l h.all he
  refine ⟨p.2, (hlook.2.2.1 e.name p.2 (by rw [← h1]; exact hp)).1, ?_, ?_⟩
  · unfold dataOpen
    rw [h2]
  · unfold OwnerOk at h3
    cases hpar : e.parent with
    | none =>
      rw [hpar] at h3
      rw [h2, h3]
    | some n =>
      rw [hpar] at h3
      obtain ⟨d', h4, h5⟩ := h3
      exact ⟨d', (hlook.2.2.1 n d' h4).1, by rw [h2, h5]⟩

/-- **Iterating over a File** never works: `ClosedFileError` or `TypeError`. -/
theorem iterate_fails (w : World) (f : Nat) : iterate w f = .error .closedFile ∨
    iterate w f = .error .typeError := by
  unfold iterate values
  cases h : items w f with
  | error e =>
    left
    unfold items at h
    split at h
    · cases h
    · injection h with h
      subst h
      rfl
  | ok l => right; rfl

/-! ### Where opening goes wrong -/

/-- no class fits the attributes -/
def NoClass (g : GroupDesc) : Prop :=
  g.datatype ≠ "HYDRODYNAMIC" ∧
  (g.datatype = "STRUCTURAL" → g.level ≠ "TOPLEVEL" ∧ g.level ≠ "FIRSTLEVEL")

theorem classOf_none {g : GroupDesc} (h : NoClass g) : classOf g = .ok none := by
  unfold classOf
  by_cases hs : g.datatype = "STRUCTURAL"
  · obtain ⟨h1, h2⟩ := h.2 hs
    rw [if_pos hs, if_neg h1, if_neg h2]
  · rw [if_neg hs, if_neg h.1]

/-- **A first group of unknown class**: `UnboundLocalError`; nothing is registered, the handle
stays open. -/
theorem open_unbound (w : World) {g : GroupDesc} (rest : List GroupDesc) (h : NoClass g) :
    openFile w (g :: rest) = ({ w with handles := w.handles ++ [true] }, .error .unboundLocal) := by
  unfold openFile addGroups
  rw [classOf_none h]
  rfl

theorem addGroups_append {f base : Nat} (rest : List GroupDesc) (pre : List GroupDesc) :
    ∀ b, addGroups f base (pre ++ rest) b = (addGroups f base pre b).bind (addGroups f base rest) := by
  induction pre with
  | nil => intro b; rfl
  | cons g pre ih =>
    intro b
    rw [List.cons_append]
    unfold addGroups
    cases classOf g with
    | error e => rfl
    | ok c =>
      cases c with
      | some c => exact ih _
      | none =>
        show (match b.data with
          | some d => addGroups f base (pre ++ rest)
              (addSubs base g.name d g.subs { b with items := b.items ++ [(g.name, d)] })
          | none => .error .unboundLocal) = Except.bind (match b.data with
          | some d => addGroups f base pre
              (addSubs base g.name d g.subs { b with items := b.items ++ [(g.name, d)] })
          | none => .error .unboundLocal) _
        cases b.data with
        | some d => exact ih _
        | none => rfl

/-- **A later group of unknown class is an alias of the group before it**: its key gives the data
object of that group, which reads that other group's tables. -/
theorem open_alias (w : World) {pre : List GroupDesc} {g0 g : GroupDesc} {es : List Entry}
    (hp : Listing (pre ++ [g0]) es) (hg : NoClass g) (hs : g.subs = []) :
    ∃ w' l d, openFile w (pre ++ [g0, g]) = (w', .ok w.files.length) ∧
      items w' w.files.length = .ok (l ++ [(g.name, d)]) ∧ (g0.name, d) ∈ l ∧
      l.map (·.1) = es.map (·.name) := by
  obtain ⟨b, hb, hag, _, hlast⟩ := agrees_groups hp (agrees_empty w.files.length w.datas.length)
  rw [List.nil_append] at hag
  obtain ⟨d, hd, hin⟩ := hlast g0 (by simp)
  have e : addGroups w.files.length w.datas.length (pre ++ [g0, g]) {} =
      .ok { b with items := b.items ++ [(g.name, d)], data := some d } := by
    have : pre ++ [g0, g] = (pre ++ [g0]) ++ [g] := by simp
    rw [this, addGroups_append, hb]
    show addGroups _ _ [g] b = _
    unfold addGroups
    rw [classOf_none hg]
    show (match b.data with
          | some d => addGroups w.files.length w.datas.length []
              (addSubs w.datas.length g.name d g.subs { b with items := b.items ++ [(g.name, d)] })
          | none => .error .unboundLocal) = _
    simp only [hd, hs]
    rfl
  refine ⟨{ files := w.files ++ [.opened (b.items ++ [(g.name, d)]) w.handles.length],
             datas := w.datas ++ b.made,
             handles := w.handles ++ [true],
             registry := w.registry ++ [w.files.length] },
    b.items, d, ?_, ?_, hin, ?_⟩
  · unfold openFile
    rw [e]
  · unfold items
    simp
  · exact forall₂_names (hag.all.imp fun _ _ h => ⟨h.1, h.2⟩)

/-- **Hydrodynamic results that cannot be read** make the whole file fail with that error; nothing is
registered and the handle stays open. -/
theorem open_hydro_fails (w : World) {pre rest : List GroupDesc} {g : GroupDesc} {es : List Entry}
    {e : Err} (hp : Listing pre es) (hg : g.datatype = "HYDRODYNAMIC") (he : g.hydroInit = .error e) :
    openFile w (pre ++ g :: rest) = ({ w with handles := w.handles ++ [true] }, .error e) := by
  obtain ⟨b, hb, _, _, _⟩ := agrees_groups hp (agrees_empty w.files.length w.datas.length)
  have hne : ¬ ("HYDRODYNAMIC" : String) = "STRUCTURAL" := by decide
  have hc : classOf g = .error e := by
    unfold classOf
    rw [hg, if_neg hne, if_pos rfl, he]
  have : addGroups w.files.length w.datas.length (pre ++ g :: rest) {} = .error e := by
    rw [addGroups_append, hb]
    show addGroups _ _ (g :: rest) b = _
    unfold addGroups
    rw [hc]
    rfl
  unfold openFile
  rw [this]

/-! ### `open_sif` -/

/-- **`open_sif`**: the data object of the group named as the file; the File is open and registered. -/
theorem open_sif_holds (w : World) {gs : List GroupDesc} {es : List Entry} (h : Listing gs es)
    (hn : (es.map (·.name)).Nodup) {e : Entry} (he : e ∈ es) (hp : e.parent = none) :
    ∃ w' d, openSif w gs e.name = (w', .ok d) ∧
      w'.datas[d]? = some (.opened e.cls e.name (.file w.files.length)) ∧
      w'.registry = w.registry ++ [w.files.length] := by
  obtain ⟨w', l, e1, h1⟩ := open_holds_partial w h
  obtain ⟨d, h2, _, h3⟩ := open_lookup h1 hn he
  refine ⟨w', d, ?_, ?_, h1.registered⟩
  · unfold openSif
    rw [e1]
    show (w', getItem w' w.files.length e.name) = _
    rw [h2]
  · rw [hp] at h3
    exact h3

/-- **`open_sif` on a name that is not the name of its group** raises `KeyError` and leaves the
converted file open and registered. -/
theorem open_sif_key_error (w : World) {gs : List GroupDesc} {es : List Entry} (h : Listing gs es)
    (hn : (es.map (·.name)).Nodup) {name : String} (he : name ∉ es.map (·.name)) :
    ∃ w', openSif w gs name = (w', .error .keyError) ∧
      w'.registry = w.registry ++ [w.files.length] := by
  obtain ⟨w', l, e1, h1⟩ := open_holds_partial w h
  have hnames := forall₂_names h1.all
  refine ⟨w', ?_, h1.registered⟩
  unfold openSif
  rw [e1]
  show (w', getItem w' w.files.length name) = _
  rw [((lookups h1.items (by rw [hnames]; exact hn)).2.2.2 name (by rw [hnames]; exact he)).1]

end Verif.Data.Life
