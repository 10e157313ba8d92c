import Verif.Data.ElemResProps
import Verif.Data.NamesProps
/-!
# C84: byte strings as names of sets

`get_setnames` returns byte strings, the selections want `str`: what a getter does with a byte
string in `sets`.
-/

namespace Verif.Data
open Verif
open Verif.Seq (Str)

variable {K : Type}

/-- a byte string that is not empty is given in `sets`, alone or after the names `before` -/
inductive GivesBytes : SetsArg → List Str → Prop
  | alone {name} : name ≠ [] → GivesBytes (.bytes name) []
  | after (before name) : GivesBytes (.mixed before name) before

theorem GivesBytes.facts {s : SetsArg} {before : List Str} (h : GivesBytes s before) :
    s.truthy = true ∧ s.more = true ∧ s.names = before := by
  cases h with
  | alone h => exact ⟨by simpa [SetsArg.truthy] using h, by simpa [SetsArg.more] using h, rfl⟩
  | after => exact ⟨rfl, rfl, rfl⟩

theorem elementIndices_bytes {d : Struc K} {s : SetsArg} {before : List Str}
    (h : GivesBytes s before) (kind : Option String) : ∃ e, elementIndices d s kind = .error e := by
  obtain ⟨h1, h2, h3⟩ := h.facts
  unfold elementIndices
  rw [if_pos h1, h2, h3]
  unfold setMemberIndices
  cases need d.isOpen d.tdsetnam with
  | error e => exact ⟨e, rfl⟩
  | ok t =>
    cases need d.isOpen d.gsetmemb with
    | error e => exact ⟨e, rfl⟩
    | ok g =>
      simp only [bind_ok]
      cases before.mapM (membersOf t g.1 g.2 2) with
      | error e => exact ⟨e, rfl⟩
      | ok p => exact ⟨.nameError, rfl⟩

theorem nodeIndices_bytes {d : Struc K} {s : SetsArg} {before : List Str}
    (h : GivesBytes s before) (kind : Option String) (disc : Bool) :
    ∃ e, nodeIndices d s kind disc = .error e := by
  obtain ⟨e, he⟩ := elementIndices_bytes (d := d) h kind
  unfold nodeIndices
  cases need d.isOpen d.gcoord with
  | error e => exact ⟨e, rfl⟩
  | ok t =>
    cases need d.isOpen d.gelmnt1 with
    | error e => exact ⟨e, rfl⟩
    | ok g =>
      simp only [bind_ok]
      rw [h.facts.1, Bool.true_or, if_pos rfl, he]
      exact ⟨e, rfl⟩

theorem getElementNumbers_bytes {d : Struc K} {s : SetsArg} {before : List Str}
    (h : GivesBytes s before) (kind : Option String) (t : String) :
    ∃ e, getElementNumbers d s kind t = .error e := by
  obtain ⟨e, he⟩ := elementIndices_bytes (d := d) h kind
  unfold getElementNumbers
  cases need d.isOpen d.gelmnt1 with
  | error e => exact ⟨e, rfl⟩
  | ok g =>
    simp only [bind_ok]
    rw [h.facts.1, Bool.true_or, he]
    by_cases h1 : t = "external"
    · rw [if_pos h1]; exact ⟨e, rfl⟩
    · by_cases h2 : t = "internal"
      · rw [if_neg h1, if_pos h2]; exact ⟨e, rfl⟩
      · rw [if_neg h1, if_neg h2]; exact ⟨_, rfl⟩

theorem getNodeNumbers_bytes {d : Struc K} {s : SetsArg} {before : List Str}
    (h : GivesBytes s before) (kind : Option String) (disc : Bool) (t : String) :
    ∃ e, getNodeNumbers d s kind disc t = .error e := by
  obtain ⟨e, he⟩ := nodeIndices_bytes (d := d) h kind disc
  unfold getNodeNumbers
  cases need d.isOpen d.gnode with
  | error e => exact ⟨e, rfl⟩
  | ok g =>
    simp only [bind_ok]
    rw [h.facts.1, Bool.true_or, Bool.true_or, he]
    by_cases h1 : t = "external"
    · rw [if_pos h1]; exact ⟨e, rfl⟩
    · by_cases h2 : t = "internal"
      · rw [if_neg h1, if_pos h2]; exact ⟨e, rfl⟩
      · rw [if_neg h1, if_neg h2]; exact ⟨_, rfl⟩

/-- **C84** No getter returns anything when a byte string is given as the name of a set, whatever
the file holds and whatever the other arguments are. -/
theorem bytes_never {d : Struc K} [Field K] {s : SetsArg} {before : List Str}
    (h : GivesBytes s before) (kind : Option String) (disc : Bool) (t pos : String) (fuel : Nat)
    (tr : TransArg K) (index run : Int) (cases : CasesArg) (s3 : K) :
    (∃ e, getElements d s kind disc = .error e) ∧
    (∃ e, getElementNumbers d s kind t = .error e) ∧
    (∃ e, getNodes d fuel s kind disc tr index = .error e) ∧
    (∃ e, getNodeNumbers d s kind disc t = .error e) ∧
    (∃ e, getNodeResults d t run cases s kind disc = .error e) ∧
    (∃ e, getElementResults s3 d t pos run cases s = .error e) ∧
    (∃ e, getSectionProperties d s = .error e) ∧
    (∃ e, getShellThicknesses d s = .error e) := by
  refine ⟨?_, getElementNumbers_bytes h kind t, ?_, getNodeNumbers_bytes h kind disc t, ?_, ?_, ?_, ?_⟩
  · obtain ⟨e, he⟩ := elementIndices_bytes (d := d) h kind
    unfold getElements
    cases need d.isOpen d.gelmnt1 with
    | error e => exact ⟨e, rfl⟩
    | ok g =>
      simp only [bind_ok]
      rw [h.facts.1, Bool.true_or, if_pos rfl, he]
      exact ⟨e, rfl⟩
  · obtain ⟨e, he⟩ := nodeIndices_bytes (d := d) h kind disc
    unfold getNodes
    cases need d.isOpen d.gcoord with
    | error e => exact ⟨e, rfl⟩
    | ok g =>
      simp only [bind_ok]
      rw [he]
      exact ⟨e, rfl⟩
  · obtain ⟨e, he⟩ := getNodeNumbers_bytes (d := d) h kind false "internal"
    unfold getNodeResults
    cases nodeResTable d t with
    | error e => exact ⟨e, rfl⟩
    | ok g =>
      simp only [bind_ok]
      cases resRefs d run cases with
      | error e => exact ⟨e, rfl⟩
      | ok r =>
        simp only [bind_ok]
        cases complexFlag (r.map ResRef.icompl) with
        | error e => exact ⟨e, rfl⟩
        | ok f =>
          simp only [bind_ok]
          rw [he]
          exact ⟨e, rfl⟩
  · unfold getElementResults
    cases elemResTable d t with
    | error e => exact ⟨e, rfl⟩
    | ok g =>
      obtain ⟨e, he⟩ := getElementNumbers_bytes (d := d) h (some g.2.2) "internal"
      simp only [bind_ok]
      cases resRefs d run cases with
      | error e => exact ⟨e, rfl⟩
      | ok r =>
        simp only [bind_ok]
        cases complexFlag (r.map ResRef.icompl) with
        | error e => exact ⟨e, rfl⟩
        | ok f =>
          simp only [bind_ok]
          rw [he]
          exact ⟨e, rfl⟩
  · obtain ⟨e, he⟩ := elementIndices_bytes (d := d) h (some "beam")
    unfold getSectionProperties
    cases need d.isOpen d.gelref1 with
    | error e => exact ⟨e, rfl⟩
    | ok g =>
      cases need d.isOpen d.gbeamg with
      | error e => exact ⟨e, rfl⟩
      | ok g =>
        simp only [bind_ok]
        rw [he]
        exact ⟨e, rfl⟩
  · obtain ⟨e, he⟩ := elementIndices_bytes (d := d) h (some "shell")
    unfold getShellThicknesses
    cases need d.isOpen d.gelref1 with
    | error e => exact ⟨e, rfl⟩
    | ok g =>
      cases need d.isOpen d.gelth with
      | error e => exact ⟨e, rfl⟩
      | ok g =>
        simp only [bind_ok]
        rw [he]
        exact ⟨e, rfl⟩

/-- what a byte string in `sets` raises on an object with sets: ConditionError if a name before it
is not defined, NameError otherwise -/
inductive BytesError (m : Mesh K) (before : List Str) : Err → Prop
  | unknown : (∃ n ∈ before, ∀ id, ¬ FirstId m n id) → BytesError m before .conditionError
  | name : (∀ n ∈ before, ∃ id, FirstId m n id) → BytesError m before .nameError

theorem elementIndices_bytes_err {d : Struc K} {m : Mesh K} (hd : d.isOpen = true)
    (hs : HoldsSets d m) {s : SetsArg} {before : List Str} (h : GivesBytes s before) {e : Err}
    (he : BytesError m before e) (kind : Option String) :
    elementIndices d s kind = .error e := by
  obtain ⟨h1, h2, h3⟩ := h.facts
  obtain ⟨mrows, arr, hm, hf⟩ := hs.sets
  unfold elementIndices
  rw [if_pos h1, h2, h3]
  unfold setMemberIndices need
  rw [hd, hs.names, hm]
  simp only [if_true, bind_ok]
  cases he with
  | unknown he =>
    rw [mapM_error (e := .conditionError)]
    · rfl
    · intro n _
      by_cases hk : ∃ id, FirstId m n id
      · obtain ⟨id, hk⟩ := hk
        exact .inl ⟨_, membersOf_ok hf hk⟩
      · exact .inr (membersOf_unknown (not_exists.mp hk))
    · obtain ⟨n, hn, hu⟩ := he
      exact ⟨n, hn, membersOf_unknown hu⟩
  | name he =>
    have : ∃ parts, before.mapM (membersOf (m.names.map fun p => ⟨p.2, p.1⟩) mrows arr 2) =
        .ok parts := by
      clear h h3
      induction before with
      | nil => exact ⟨[], rfl⟩
      | cons a l ih =>
        obtain ⟨parts, hp⟩ := ih fun n hn => he n (List.mem_cons_of_mem _ hn)
        obtain ⟨id, hid⟩ := he a List.mem_cons_self
        exact ⟨_, by rw [List.mapM_cons, membersOf_ok hf hid, bind_ok, hp]; rfl⟩
    obtain ⟨parts, hp⟩ := this
    rw [hp]
    rfl

theorem nodeIndices_bytes_err {d : Struc K} {m : Mesh K} (hd : Holds d m)
    (hs : HoldsSets d m) {s : SetsArg} {before : List Str} (h : GivesBytes s before) {e : Err}
    (he : BytesError m before e) (kind : Option String) (disc : Bool) :
    nodeIndices d s kind disc = .error e := by
  obtain ⟨rows, hg, _⟩ := hd.elems
  unfold nodeIndices need
  rw [hd.isOpen, hd.coords, hg]
  simp only [if_true, bind_ok]
  rw [h.facts.1, Bool.true_or, if_pos rfl, elementIndices_bytes_err hd.isOpen hs h he]
  rfl

/-- **C84** The exception: NameError, unless a name before the byte string is not defined.  In
particular for every name that `get_setnames` returned. -/
theorem bytes_error [Semiring K] {d : Struc K} {m : Mesh K} (hd : Holds d m) (hs : HoldsSets d m)
    {s : SetsArg} {before : List Str} (h : GivesBytes s before) {e : Err}
    (he : BytesError m before e) (kind : Option String) (disc : Bool) {t : String}
    (ht : t = "internal" ∨ t = "external") (fuel : Nat) (tr : TransArg K) (index : Int) :
    getElements d s kind disc = .error e ∧
    getElementNumbers d s kind t = .error e ∧
    getNodes d fuel s kind disc tr index = .error e ∧
    getNodeNumbers d s kind disc t = .error e := by
  obtain ⟨rows, hg, _⟩ := hd.elems
  obtain ⟨nrows, hn, _⟩ := hd.nodes
  have hi := fun k => elementIndices_bytes_err hd.isOpen hs h he k
  have hni := nodeIndices_bytes_err hd hs h he kind disc
  refine ⟨?_, ?_, ?_, ?_⟩
  · unfold getElements need
    rw [hd.isOpen, hg]
    simp only [if_true, bind_ok]
    rw [h.facts.1, Bool.true_or, if_pos rfl, hi]
    rfl
  · unfold getElementNumbers need
    rw [hd.isOpen, hg]
    simp only [if_true, bind_ok]
    rw [h.facts.1, Bool.true_or, hi]
    rcases ht with rfl | rfl <;> rfl
  · unfold getNodes need
    rw [hd.isOpen, hd.coords]
    simp only [if_true, bind_ok]
    rw [hni]
    rfl
  · unfold getNodeNumbers need
    rw [hd.isOpen, hn]
    simp only [if_true, bind_ok]
    rw [h.facts.1, Bool.true_or, Bool.true_or, hni]
    rcases ht with rfl | rfl <;> rfl

/-- **C84** Names returned by `get_setnames` cannot be used as they are: as `sets` each of them
(and the list of them) raises NameError, while the same name as `str` selects its elements. -/
theorem returned_names {d : Struc K} {m : Mesh K} (hd : Holds d m) (hv : Valid m)
    (hs : HoldsSets d m) :
    ∃ names, getSetNames d = .ok (some names) ∧ names = m.names.map Prod.fst ∧
      ∀ n ∈ names, n ≠ [] →
        getElementNumbers d (.bytes n) none "internal" = .error .nameError ∧
        getElementNumbers d (.mixed [] n) none "internal" = .error .nameError ∧
        ∀ es, Chosen m (.one n) none es →
          getElementNumbers d (.one n) none "internal" = .ok (es.map fun i : Nat => ((i + 1 : Nat) : Int)) := by
  refine ⟨m.names.map Prod.fst, ?_, rfl, ?_⟩
  · rw [(set_names hd.isOpen).1 _ hs.names, List.map_map]
    rfl
  · intro n _ hne
    have herr : BytesError m [] .nameError := .name (by simp)
    have key : ∀ {s}, GivesBytes s [] → getElementNumbers d s none "internal" = .error .nameError := by
      intro s h
      obtain ⟨rows, hg, _⟩ := hd.elems
      unfold getElementNumbers need
      rw [hd.isOpen, hg]
      simp only [if_true, bind_ok]
      rw [h.facts.1, Bool.true_or, elementIndices_bytes_err hd.isOpen hs h herr]
      rfl
    refine ⟨key (.alone hne), key (.after _ _), ?_⟩
    intro es hc
    exact elementNumbers_ok hd hv (.inr hs) hc

/-- **C84** An empty byte string is the same as no `sets`. -/
theorem empty_bytes [Field K] (d : Struc K) (kind : Option String) (disc : Bool) (t pos : String)
    (fuel : Nat) (tr : TransArg K) (index run : Int) (cases : CasesArg) (s3 : K) :
    getElements d (.bytes []) kind disc = getElements d .none kind disc ∧
    getElementNumbers d (.bytes []) kind t = getElementNumbers d .none kind t ∧
    getNodes d fuel (.bytes []) kind disc tr index = getNodes d fuel .none kind disc tr index ∧
    getNodeNumbers d (.bytes []) kind disc t = getNodeNumbers d .none kind disc t ∧
    getNodeResults d t run cases (.bytes []) kind disc = getNodeResults d t run cases .none kind disc ∧
    getElementResults s3 d t pos run cases (.bytes []) = getElementResults s3 d t pos run cases .none ∧
    getSectionProperties d (.bytes []) = getSectionProperties d .none ∧
    getShellThicknesses d (.bytes []) = getShellThicknesses d .none :=
  ⟨rfl, rfl, rfl, rfl, rfl, rfl, rfl, rfl⟩

/-! ## examples -/

/-- sets `A` and `B` of the example exist: the byte string `b'B'` after `'A'` raises NameError, after
the undefined name `'C'` ConditionError -/
example : getElements Demo.object (.mixed [Demo.nameA] Demo.nameB) none true = .error .nameError :=
  (bytes_error Demo.holds Demo.holdsSets (.after _ _)
    (.name (by simpa using ⟨1, Demo.firstA⟩)) none true (.inl rfl) 5 .none 1).1
example : getElements Demo.object (.mixed [Demo.nameA, Demo.nameC] Demo.nameB) none true =
    .error .conditionError :=
  (bytes_error Demo.holds Demo.holdsSets (.after _ _)
    (.unknown ⟨Demo.nameC, by simp, Demo.noC⟩) none true (.inl rfl) 5 .none 1).1
example := bytes_error Demo.holds Demo.holdsSets (.alone (name := Demo.nameA) (by decide))
  (.name (by simp)) (some "beam") false (.inr rfl) 5 .none 1
/-- a sample of `bytes_never`, for an object without any records -/
example := bytes_never (K := Rat) (d := { }) (.alone (name := Demo.nameA) (by decide))
  none false "velocity" "nodes" 5 .none 1 1 .all 0
example := returned_names Demo.holds Demo.valid Demo.holdsSets
example : getSetNames Demo.object =
    .ok (some [Demo.nameA, Demo.nameB, Demo.nameA, Demo.nameS]) := rfl
example : getElementNumbers Demo.object (.one Demo.nameA) none "internal" = .ok [2, 4] := rfl

end Verif.Data
