import Verif.Data.Spec
import Verif.Data.NpLemmas
/-!
# Selections are the ones specified (helper lemmas)
-/

namespace Verif.Data
open Verif
open Verif.Seq (Str)

variable {K : Type}

/-! ## rows -/

theorem ElemRows.length {n s : Nat} {es : List Element} {rs : List ElemRow}
    (h : ElemRows n s es rs) : rs.length = es.length := by
  induction h with
  | nil => rfl
  | cons _ ih => simp [ih]

/-- the total number of nodes listed for the first `i` elements -/
def before (es : List Element) (i : Nat) : Nat := ((es.take i).flatMap Element.nodes).length

theorem before_zero (es : List Element) : before es 0 = 0 := rfl

theorem before_cons (e : Element) (es : List Element) (i : Nat) :
    before (e :: es) (i + 1) = e.nodes.length + before es i := by
  simp [before, List.flatMap_cons]

theorem ElemRows.row {n s : Nat} {es : List Element} {rs : List ElemRow}
    (h : ElemRows n s es rs) {i : Nat} {e : Element} (hi : es[i]? = some e) :
    rs[i]? = some ⟨e.ext, (n + i : Nat), e.typ, (s + before es i : Nat),
      (s + before es i + e.nodes.length : Nat)⟩ := by
  induction h generalizing i with
  | nil => simp at hi
  | cons _ ih =>
    cases i with
    | zero =>
      simp only [List.getElem?_cons_zero, Option.some.injEq] at hi ⊢
      subst hi
      rw [before_zero]; rfl
    | succ i =>
      rw [List.getElem?_cons_succ] at hi ⊢
      rw [ih hi, before_cons]
      congr 2 <;> omega

theorem flat_part {es : List Element} {i : Nat} {e : Element} (hi : es[i]? = some e) :
    ((es.flatMap Element.nodes).drop (before es i)).take e.nodes.length = e.nodes := by
  induction es generalizing i with
  | nil => simp at hi
  | cons a es ih =>
    cases i with
    | zero =>
      simp only [List.getElem?_cons_zero, Option.some.injEq] at hi
      subst hi
      simp [before_zero]
    | succ i =>
      rw [List.getElem?_cons_succ] at hi
      rw [before_cons, List.flatMap_cons, List.drop_append]
      have h1 : a.nodes.drop (a.nodes.length + before es i) = [] :=
        List.drop_eq_nil_of_le (by omega)
      rw [h1, List.nil_append, Nat.add_sub_cancel_left]
      exact ih hi

theorem NodeRows.row {n : Nat} {ns : List (Node K)} {rs : List NodeRow}
    (h : NodeRows n ns rs) {i : Nat} {a : Node K} (hi : ns[i]? = some a) :
    rs[i]? = some ⟨a.ext, (n + i : Nat)⟩ := by
  induction h generalizing i with
  | nil => simp at hi
  | cons _ ih =>
    cases i with
    | zero =>
      simp only [List.getElem?_cons_zero, Option.some.injEq] at hi ⊢
      subst hi; rfl
    | succ i =>
      rw [List.getElem?_cons_succ] at hi ⊢
      rw [ih hi]
      congr 2; omega

theorem NodeRows.length {n : Nat} {ns : List (Node K)} {rs : List NodeRow}
    (h : NodeRows n ns rs) : rs.length = ns.length := by
  induction h with
  | nil => rfl
  | cons _ ih => simp [ih]

/-! ## sets -/

theorem find_first {m : Mesh K} {name : Str} {id : Int} (h : FirstId m name id) :
    ((m.names.map fun p : Str × Int => (⟨p.2, p.1⟩ : NameRow)).find? fun r => r.name = name) =
      some ⟨id, name⟩ := by
  obtain ⟨pre, post, e, hpre⟩ := h
  rw [e, List.map_append, List.find?_append, List.map_cons, List.find?_cons_of_pos (by simp)]
  have : ((pre.map fun p : Str × Int => (⟨p.2, p.1⟩ : NameRow)).find? fun r => r.name = name) =
      none := by
    rw [List.find?_eq_none]
    intro r hr
    obtain ⟨p, hp, rfl⟩ := List.mem_map.mp hr
    simpa using hpre p hp
  rw [this]; rfl

theorem FirstId.unique {m : Mesh K} {name : Str} {a b : Int} (ha : FirstId m name a)
    (hb : FirstId m name b) : a = b := by
  have := (find_first ha).symm.trans (find_first hb)
  simpa using this

theorem find_unknown {m : Mesh K} {name : Str} (h : ∀ id, ¬ FirstId m name id) :
    ((m.names.map fun p : Str × Int => (⟨p.2, p.1⟩ : NameRow)).find? fun r => r.name = name) =
      none := by
  rw [List.find?_eq_none]
  intro r hr hn
  obtain ⟨p, hp, rfl⟩ := List.mem_map.mp hr
  simp only [decide_eq_true_eq] at hn
  -- the first definition of the name
  have : ∀ l : List (Str × Int), (∃ p ∈ l, p.1 = name) →
      ∃ id pre post, l = pre ++ (name, id) :: post ∧ ∀ p ∈ pre, p.1 ≠ name := by
    intro l
    induction l with
    | nil => rintro ⟨p, hp, _⟩; simp at hp
    | cons a l ih =>
      rintro ⟨p, hp, hpn⟩
      by_cases ha : a.1 = name
      · exact ⟨a.2, [], l, by rw [← ha]; rfl, by simp⟩
      · rcases List.mem_cons.mp hp with rfl | hp
        · exact absurd hpn ha
        · obtain ⟨id, pre, post, e, h⟩ := ih ⟨p, hp, hpn⟩
          refine ⟨id, a :: pre, post, by rw [e]; rfl, ?_⟩
          intro q hq
          rcases List.mem_cons.mp hq with rfl | hq
          · exact ha
          · exact h q hq
  obtain ⟨id, pre, post, e, hh⟩ := this m.names ⟨p, hp, hn⟩
  exact h id ⟨pre, post, e, hh⟩

/-- the member lists of the records of a set -/
theorem membersOf_ok {m : Mesh K} {rows : List MembRow} {arr : List Int}
    (hs : List.Forall₂ (fun (s : SetRec) (r : MembRow) => r.isref = s.id ∧ r.istype = s.kind ∧
      Part arr r.start r.stop (s.members.map fun n : Nat => (n : Int))) m.sets rows)
    {name : Str} {id : Int} (hid : FirstId m name id) :
    membersOf (m.names.map fun p => ⟨p.2, p.1⟩) rows arr 2 name =
      .ok ((m.sets.filter fun s => s.id = id ∧ s.kind = 2).map fun s =>
        s.members.map fun n : Nat => (n : Int)) := by
  unfold membersOf getrow
  rw [find_first hid]
  simp only [bind_ok, Except.ok.injEq]
  clear hid
  generalize m.sets = sets at hs
  induction hs with
  | nil => rfl
  | @cons s r ss rs h _ ih =>
    obtain ⟨h1, h2, a, b, h3, h4, _, _, h5⟩ := h
    by_cases hc : s.id = id ∧ s.kind = 2
    · rw [List.filter_cons_of_pos (by simp [h1, h2, hc.1, hc.2]),
        List.filter_cons_of_pos (by simp [hc.1, hc.2]), List.map_cons, List.map_cons, ih, h3, h4,
        npSlice_nat, h5]
    · rw [List.filter_cons_of_neg (by rw [h1, h2]; simpa using hc),
        List.filter_cons_of_neg (by simpa using hc), ih]

theorem membersOf_unknown {m : Mesh K} {rows : List MembRow} {arr : List Int} {name : Str}
    {istype : Int} (h : ∀ id, ¬ FirstId m name id) :
    membersOf (m.names.map fun p => ⟨p.2, p.1⟩) rows arr istype name = .error .conditionError := by
  unfold membersOf getrow
  rw [find_unknown h]; rfl

theorem mapM_error {α β : Type} {f : α → Except Err β} {e : Err} {l : List α}
    (hall : ∀ x ∈ l, (∃ y, f x = .ok y) ∨ f x = .error e) (hex : ∃ x ∈ l, f x = .error e) :
    l.mapM f = .error e := by
  induction l with
  | nil => obtain ⟨x, hx, _⟩ := hex; simp at hx
  | cons a l ih =>
    rw [List.mapM_cons]
    rcases hall a List.mem_cons_self with ⟨y, hy⟩ | he
    · rw [hy, bind_ok]
      obtain ⟨x, hx, hxe⟩ := hex
      rcases List.mem_cons.mp hx with rfl | hx
      · rw [hy] at hxe; cases hxe
      · rw [ih (fun z hz => hall z (List.mem_cons_of_mem _ hz)) ⟨x, hx, hxe⟩]; rfl
    · rw [he]; rfl

/-- the elements of the union of the named sets -/
theorem setMemberIndices_ok {d : Struc K} {m : Mesh K} (hd : d.isOpen = true)
    (hs : HoldsSets d m)
    (hv : ∀ s ∈ m.sets, s.kind = 2 → ∀ n ∈ s.members, 1 ≤ n ∧ n ≤ m.elems.length)
    {names : List Str}
    (hknown : ∀ n ∈ names, ∃ id, FirstId m n id) (hrec : ∃ n ∈ names, ∃ s, RecordOf m n s) :
    ∃ es : List Nat, setMemberIndices d names false 2 = .ok (es.map fun i : Nat => (i : Int)) ∧
      es.Pairwise (· < ·) ∧ (∀ i ∈ es, i < m.elems.length) ∧
      ∀ i, i ∈ es ↔ ∃ n ∈ names, InSet m n (i + 1) := by
  obtain ⟨rows, arr, hg, hf⟩ := hs.sets
  -- the numbers of the sets
  have hids : ∃ parts, names.mapM (membersOf (m.names.map fun p => ⟨p.2, p.1⟩) rows arr 2) =
        .ok parts ∧
      ∀ part, part ∈ parts.flatten ↔ ∃ n ∈ names, ∃ s, RecordOf m n s ∧
        part = s.members.map fun n : Nat => (n : Int) := by
    clear hrec
    induction names with
    | nil => exact ⟨[], rfl, by simp⟩
    | cons a l ih =>
      obtain ⟨id, hid⟩ := hknown a List.mem_cons_self
      obtain ⟨parts, h1, h2⟩ := ih fun n hn => hknown n (List.mem_cons_of_mem _ hn)
      refine ⟨_, by rw [List.mapM_cons, membersOf_ok hf hid, bind_ok, h1]; rfl, ?_⟩
      intro part
      rw [List.flatten_cons, List.mem_append, h2, List.mem_map]
      constructor
      · rintro (⟨s, hs', rfl⟩ | ⟨n, hn, h⟩)
        · rw [List.mem_filter, decide_eq_true_eq] at hs'
          exact ⟨a, List.mem_cons_self, s, ⟨hs'.1, by rw [hs'.2.1]; exact hid, hs'.2.2⟩, rfl⟩
        · exact ⟨n, List.mem_cons_of_mem _ hn, h⟩
      · rintro ⟨n, hn, s, ⟨h3, h4, h5⟩, rfl⟩
        rcases List.mem_cons.mp hn with rfl | hn
        · left
          refine ⟨s, ?_, rfl⟩
          rw [List.mem_filter, decide_eq_true_eq]
          exact ⟨h3, h4.unique hid, h5⟩
        · exact .inr ⟨n, hn, s, ⟨h3, h4, h5⟩, rfl⟩
  obtain ⟨parts, hp1, hp2⟩ := hids
  have hne : parts.flatten ≠ [] := by
    obtain ⟨n, hn, s, hs'⟩ := hrec
    intro he
    have := (hp2 _).mpr ⟨n, hn, s, hs', rfl⟩
    rw [he] at this; simp at this
  have hmem : ∀ x, x ∈ parts.flatten.flatten ↔ ∃ i : Nat, x = ((i + 1 : Nat) : Int) ∧
      ∃ n ∈ names, InSet m n (i + 1) := by
    intro x
    rw [List.mem_flatten]
    constructor
    · rintro ⟨part, h1, h2⟩
      obtain ⟨n, hn, s, hs', rfl⟩ := (hp2 _).mp h1
      obtain ⟨k, hk, rfl⟩ := List.mem_map.mp h2
      have := hv s hs'.1 hs'.2.2 k hk
      refine ⟨k - 1, by congr 1; omega, n, hn, s, hs', ?_⟩
      rw [Nat.sub_add_cancel this.1]; exact hk
    · rintro ⟨i, rfl, n, hn, s, hs', hk⟩
      exact ⟨_, (hp2 _).mpr ⟨n, hn, s, hs', rfl⟩, List.mem_map.mpr ⟨_, hk, rfl⟩⟩
  have hlt : ∀ i, (∃ n ∈ names, InSet m n (i + 1)) → i < m.elems.length := by
    rintro i ⟨n, _, s, hs', hk⟩
    have := hv s hs'.1 hs'.2.2 _ hk
    omega
  refine ⟨(npUnique parts.flatten.flatten).map fun x => (x - 1).toNat, ?_, ?_, ?_, ?_⟩
  · unfold setMemberIndices need
    rw [hd, hs.names, hg]
    simp only [if_true, bind_ok]
    rw [hp1, bind_ok, if_neg (by decide), npConcat_ok hne, bind_ok, List.map_map]
    congr 1
    apply List.map_congr_left
    intro x hx
    obtain ⟨i, rfl, _⟩ := (hmem x).mp (mem_npUnique.mp hx)
    simp
  · rw [List.pairwise_map]
    refine (npUnique_sorted _).imp_of_mem ?_
    intro a b ha hb hab
    obtain ⟨i, rfl, _⟩ := (hmem a).mp (mem_npUnique.mp ha)
    obtain ⟨j, rfl, _⟩ := (hmem b).mp (mem_npUnique.mp hb)
    omega
  · intro i hi
    obtain ⟨x, hx, rfl⟩ := List.mem_map.mp hi
    obtain ⟨j, rfl, h⟩ := (hmem x).mp (mem_npUnique.mp hx)
    simpa using hlt j h
  · intro i
    constructor
    · intro hi
      obtain ⟨x, hx, rfl⟩ := List.mem_map.mp hi
      obtain ⟨j, rfl, h⟩ := (hmem x).mp (mem_npUnique.mp hx)
      simpa using h
    · intro h
      exact List.mem_map.mpr ⟨((i + 1 : Nat) : Int), mem_npUnique.mpr ((hmem _).mpr ⟨i, rfl, h⟩),
        by simp⟩

/-! ## kinds -/

/-- selection by kind among elements at given positions -/
theorem ofKind_ok {kind : String} {Q : Int → Prop} (hk : kind ≠ "")
    (hw : WantsKind (some kind) Q) {es : List Nat} {l : List ElemRow} {elems : List Element}
    (hl : List.Forall₂ (fun i (r : ElemRow) => ∃ e, elems[i]? = some e ∧ r.elno = (i + 1 : Nat) ∧
      r.eltyp = e.typ) es l) (hs : es.Pairwise (· < ·)) :
    ∃ es' : List Nat, ofKind kind l = .ok (es'.map fun i : Nat => (i : Int)) ∧
      es'.Pairwise (· < ·) ∧ ∀ i, i ∈ es' ↔ i ∈ es ∧ ∃ e, elems[i]? = some e ∧ Q e.typ := by
  have key : ∀ (p : Int → Bool) (hp : ∀ t, p t = true ↔ Q t),
      ∃ es' : List Nat, ((l.filter fun r => p r.eltyp).map fun r => r.elno - 1) =
        es'.map (fun i : Nat => (i : Int)) ∧ es'.Pairwise (· < ·) ∧
        ∀ i, i ∈ es' ↔ i ∈ es ∧ ∃ e, elems[i]? = some e ∧ Q e.typ := by
    intro p hp
    have main : ∃ es' : List Nat, ((l.filter fun r => p r.eltyp).map fun r => r.elno - 1) =
        es'.map (fun i : Nat => (i : Int)) ∧ es'.Sublist es ∧
        ∀ i, i ∈ es' ↔ i ∈ es ∧ ∃ e, elems[i]? = some e ∧ Q e.typ := by
      clear hs
      induction hl with
      | nil => exact ⟨[], rfl, .slnil, by simp⟩
      | @cons i r is rs h _ ih =>
        obtain ⟨es', h1, h2, h3⟩ := ih
        obtain ⟨e, he, hn, ht⟩ := h
        by_cases hq : Q e.typ
        · refine ⟨i :: es', ?_, h2.cons_cons _, ?_⟩
          · rw [List.filter_cons_of_pos (by rw [ht]; exact (hp _).mpr hq), List.map_cons, h1, hn]
            simp
          · intro j
            rw [List.mem_cons, List.mem_cons, h3]
            constructor
            · rintro (rfl | ⟨h4, h5⟩)
              · exact ⟨.inl rfl, e, he, hq⟩
              · exact ⟨.inr h4, h5⟩
            · rintro ⟨rfl | h4, h5⟩
              · exact .inl rfl
              · exact .inr ⟨h4, h5⟩
        · refine ⟨es', ?_, h2.cons _, ?_⟩
          · rw [List.filter_cons_of_neg (by rw [ht]; exact fun h => hq ((hp _).mp h)), h1]
          · intro j
            rw [List.mem_cons, h3]
            constructor
            · rintro ⟨h4, h5⟩; exact ⟨.inr h4, h5⟩
            · rintro ⟨rfl | h4, e', h5, h6⟩
              · rw [he] at h5; obtain rfl := Option.some.inj h5
                exact absurd h6 hq
              · exact ⟨h4, e', h5, h6⟩
    obtain ⟨es', h1, h2, h3⟩ := main
    exact ⟨es', h1, hs.sublist h2, h3⟩
  unfold ofKind
  cases hw with
  | empty => exact absurd rfl hk
  | beam =>
    obtain ⟨es', h1, h2⟩ := key isBeam (by intro t; simp [isBeam])
    exact ⟨es', by rw [if_pos rfl, h1], h2⟩
  | shell =>
    obtain ⟨es', h1, h2⟩ := key isShell (by intro t; simp [isShell, or_assoc])
    exact ⟨es', by rw [if_neg (by decide), if_pos rfl, h1], h2⟩

theorem rows_at {m : Mesh K} {rows : List ElemRow} (hr : ElemRows 1 0 m.elems rows) {es : List Nat}
    (hlt : ∀ i ∈ es, i < m.elems.length) :
    ∃ l, npTake rows (es.map fun i : Nat => (i : Int)) = .ok l ∧
      List.Forall₂ (fun i (r : ElemRow) => ∃ e, m.elems[i]? = some e ∧ r.elno = (i + 1 : Nat) ∧
        r.eltyp = e.typ) es l := by
  obtain ⟨l, hl⟩ := forall₂_get (l := rows) (is := es) fun i hi => by
    rw [hr.length]; exact hlt i hi
  refine ⟨l, npTake_nat hl, ?_⟩
  have : ∀ {es : List Nat} {l : List ElemRow}, (∀ i ∈ es, i < m.elems.length) →
      List.Forall₂ (fun i x => rows[i]? = some x) es l →
      List.Forall₂ (fun i (r : ElemRow) => ∃ e, m.elems[i]? = some e ∧ r.elno = (i + 1 : Nat) ∧
        r.eltyp = e.typ) es l := by
    intro es l hlt h
    induction h with
    | nil => exact .nil
    | @cons i r is rs h _ ih =>
      refine .cons ?_ (ih fun j hj => hlt j (List.mem_cons_of_mem _ hj))
      have hi := hlt i List.mem_cons_self
      refine ⟨m.elems[i], List.getElem?_eq_getElem hi, ?_⟩
      rw [hr.row (List.getElem?_eq_getElem hi)] at h
      obtain rfl := Option.some.inj h
      exact ⟨by simp [Nat.add_comm], rfl⟩
  exact this hlt hl

theorem rows_all {m : Mesh K} {rows : List ElemRow} (hr : ElemRows 1 0 m.elems rows) :
    List.Forall₂ (fun i (r : ElemRow) => ∃ e, m.elems[i]? = some e ∧ r.elno = (i + 1 : Nat) ∧
        r.eltyp = e.typ) (List.range m.elems.length) rows := by
  rw [List.forall₂_iff_get]
  refine ⟨by simp [hr.length], ?_⟩
  intro i h1 h2
  simp only [List.length_range] at h1
  have h := hr.row (List.getElem?_eq_getElem h1)
  obtain ⟨_, h⟩ := List.getElem?_eq_some_iff.mp h
  refine ⟨m.elems[i], by simp [h1], ?_⟩
  simp only [List.get_eq_getElem, List.getElem_range]
  rw [h]
  exact ⟨by simp [Nat.add_comm], rfl⟩

theorem wantsKind_truthy {k : Option String} {Q : Int → Prop} (h : WantsKind k Q) :
    (kindTruthy k = true ∧ ∃ s, k = some s ∧ s ≠ "") ∨
    (kindTruthy k = false ∧ (k = none ∨ k = some "") ∧ ∀ t, Q t) := by
  cases h with
  | all => exact .inr ⟨rfl, .inl rfl, fun _ => trivial⟩
  | empty => exact .inr ⟨by decide, .inr rfl, fun _ => trivial⟩
  | beam => exact .inl ⟨by decide, "beam", rfl, by decide⟩
  | shell => exact .inl ⟨by decide, "shell", rfl, by decide⟩

theorem wantsSets_truthy {m : Mesh K} {s : SetsArg} {P : Nat → Prop} (h : WantsSets m s P) :
    (s.truthy = true ∧ s.more = false ∧ (∀ n ∈ s.names, ∃ id, FirstId m n id) ∧
      (∃ n ∈ s.names, ∃ r, RecordOf m n r) ∧ ∀ e, P e ↔ ∃ n ∈ s.names, InSet m n e) ∨
    (s.truthy = false ∧ NoSets s ∧ ∀ e, P e) := by
  cases h with
  | all => exact .inr ⟨rfl, .inl rfl, fun _ => trivial⟩
  | noName => exact .inr ⟨rfl, .inr (.inl rfl), fun _ => trivial⟩
  | noNames => exact .inr ⟨rfl, .inr (.inr (.inl rfl)), fun _ => trivial⟩
  | noBytes => exact .inr ⟨rfl, .inr (.inr (.inr rfl)), fun _ => trivial⟩
  | @one name hn hr =>
    refine .inl ⟨by simpa [SetsArg.truthy] using hn, rfl, ?_, ?_, ?_⟩
    · simp only [SetsArg.names, List.mem_singleton, forall_eq]
      obtain ⟨s, hs⟩ := hr
      exact ⟨_, hs.2.1⟩
    · simpa [SetsArg.names] using hr
    · simp [SetsArg.names]
  | many hn hk hr =>
    exact .inl ⟨by simpa [SetsArg.truthy] using hn, rfl, hk, hr, fun _ => Iff.rfl⟩

theorem sets_held {d : Struc K} {m : Mesh K} {sets : SetsArg} (ht : sets.truthy = true)
    (h : NoSets sets ∨ HoldsSets d m) : HoldsSets d m := by
  rcases h with h | h
  · rcases h with rfl | rfl | rfl | rfl <;> cases ht
  · exact h

/-- the element indices of a selection -/
theorem elementIndices_of {d : Struc K} {m : Mesh K} (hd : Holds d m)
    (hv : ∀ s ∈ m.sets, s.kind = 2 → ∀ n ∈ s.members, 1 ≤ n ∧ n ≤ m.elems.length)
    {sets : SetsArg} {kind : Option String} {es : List Nat} (hs : NoSets sets ∨ HoldsSets d m)
    (hc : Chosen m sets kind es) :
    elementIndices d sets kind = .ok (es.map fun i : Nat => (i : Int)) := by
  obtain ⟨P, Q, hP, hQ, hsort, hmem⟩ := hc
  obtain ⟨rows, hg, hr⟩ := hd.elems
  have fin : ∀ {es' : List Nat}, es'.Pairwise (· < ·) → (∀ i, i ∈ es' ↔ i ∈ es) → es' = es :=
    fun h1 h2 => sorted_ext h1 hsort h2
  unfold elementIndices
  rcases wantsSets_truthy hP with ⟨ht, hmore, hknown, hrec, hPe⟩ | ⟨ht, _, hPe⟩
  · obtain ⟨es1, h1, h2, h3, h4⟩ := setMemberIndices_ok hd.isOpen (sets_held ht hs) hv hknown hrec
    rw [if_pos ht, hmore, h1, bind_ok]
    rcases wantsKind_truthy hQ with ⟨hk, s, rfl, hs'⟩ | ⟨hk, _, hQt⟩
    · obtain ⟨l, hl, hl2⟩ := rows_at hr h3
      obtain ⟨es2, g1, g2, g3⟩ := ofKind_ok hs' hQ hl2 h2
      rw [if_pos hk]
      unfold elementKindIndices need
      rw [hd.isOpen, hg]
      simp only [if_true, bind_ok, Option.getD_some]
      rw [hl, bind_ok, g1, fin g2]
      intro i
      rw [g3, hmem, h4]
      constructor
      · rintro ⟨h5, e, h6, h7⟩; exact ⟨e, h6, (hPe _).mpr h5, h7⟩
      · rintro ⟨e, h6, h5, h7⟩; exact ⟨(hPe _).mp h5, e, h6, h7⟩
    · rw [if_neg (by rw [hk]; decide), fin h2]
      intro i
      rw [hmem, h4]
      constructor
      · intro h5
        have hi := h3 i ((h4 i).mpr h5)
        exact ⟨_, List.getElem?_eq_getElem hi, (hPe _).mpr h5, hQt _⟩
      · rintro ⟨e, h6, h5, h7⟩; exact (hPe _).mp h5
  · rw [if_neg (by rw [ht]; decide)]
    rcases wantsKind_truthy hQ with ⟨hk, s, rfl, hs'⟩ | ⟨hk, _, hQt⟩
    · obtain ⟨es2, g1, g2, g3⟩ := ofKind_ok hs' hQ (rows_all hr) (List.pairwise_lt_range)
      rw [if_pos hk]
      unfold elementKindIndices need
      rw [hd.isOpen, hg]
      simp only [if_true, bind_ok, Option.getD_some]
      rw [g1, fin g2]
      intro i
      rw [g3, hmem, List.mem_range]
      constructor
      · rintro ⟨_, e, h6, h7⟩; exact ⟨e, h6, hPe _, h7⟩
      · rintro ⟨e, h6, h5, h7⟩
        obtain ⟨hlt, _⟩ := List.getElem?_eq_some_iff.mp h6
        exact ⟨hlt, e, h6, h7⟩
    · rw [if_neg (by rw [hk]; decide)]
      unfold need
      rw [hd.isOpen, hg]
      simp only [if_true, bind_ok]
      have hes : es = List.range m.elems.length := (fin List.pairwise_lt_range (by
        intro i
        rw [hmem, List.mem_range]
        constructor
        · intro hi; exact ⟨_, List.getElem?_eq_getElem hi, hPe _, hQt _⟩
        · rintro ⟨e, h6, _⟩; exact (List.getElem?_eq_some_iff.mp h6).1)).symm
      rw [hes]
      congr 1
      have := rows_all hr
      generalize List.range m.elems.length = is at this
      clear hes hmem fin hg hr
      induction this with
      | nil => rfl
      | @cons i r _ _ h _ ih =>
        obtain ⟨e, _, h2, _⟩ := h
        rw [List.map_cons, List.map_cons, ih, h2]
        simp

theorem elementIndices_ok {d : Struc K} {m : Mesh K} (hd : Holds d m) (hv : Valid m)
    {sets : SetsArg} {kind : Option String} {es : List Nat} (hs : NoSets sets ∨ HoldsSets d m)
    (hc : Chosen m sets kind es) :
    elementIndices d sets kind = .ok (es.map fun i : Nat => (i : Int)) :=
  elementIndices_of hd hv.sets hs hc

theorem noSelection_iff {sets : SetsArg} {kind : Option String} :
    NoSelection sets kind ↔ (sets.truthy || kindTruthy kind) = false := by
  have h1 : NoSets sets ↔ sets.truthy = false := by
    unfold NoSets
    cases sets with
    | none => simp [SetsArg.truthy]
    | one n => simp [SetsArg.truthy]
    | many l => simp [SetsArg.truthy]
    | bytes n => simp [SetsArg.truthy]
    | mixed l n => simp [SetsArg.truthy]
  have h2 : (kind = none ∨ kind = some "") ↔ kindTruthy kind = false := by
    cases kind with
    | none => simp [kindTruthy]
    | some k => simp [kindTruthy]
  unfold NoSelection
  rw [h1, h2, Bool.or_eq_false_iff]

theorem Chosen.all {m : Mesh K} {sets : SetsArg} {kind : Option String} {es : List Nat}
    (hc : Chosen m sets kind es) (hn : NoSelection sets kind) :
    es = List.range m.elems.length := by
  obtain ⟨P, Q, hP, hQ, hsort, hmem⟩ := hc
  have hb := noSelection_iff.mp hn
  rw [Bool.or_eq_false_iff] at hb
  rcases wantsSets_truthy hP with ⟨ht, _⟩ | ⟨_, _, hPe⟩
  · rw [hb.1] at ht; cases ht
  rcases wantsKind_truthy hQ with ⟨ht, _⟩ | ⟨_, _, hQe⟩
  · rw [hb.2] at ht; cases ht
  refine sorted_ext hsort List.pairwise_lt_range fun i => ?_
  rw [hmem, List.mem_range]
  constructor
  · rintro ⟨e, h6, _⟩; exact (List.getElem?_eq_some_iff.mp h6).1
  · intro hi; exact ⟨_, List.getElem?_eq_getElem hi, hPe _, hQe _⟩

theorem elements_all {m : Mesh K} {l : List Element}
    (h : Elements m (List.range m.elems.length) l) : l = m.elems := by
  unfold Elements at h
  rw [List.forall₂_iff_get] at h
  obtain ⟨h1, h2⟩ := h
  rw [List.length_range] at h1
  refine List.ext_getElem h1.symm fun i h3 h4 => ?_
  have := h2 i (by simpa using h4) h3
  simp only [List.get_eq_getElem, List.getElem_range] at this
  rw [List.getElem?_eq_getElem h4] at this
  exact (Option.some.inj this).symm

/-! ## connectivity -/

theorem elements_rows {m : Mesh K} {rows : List ElemRow} (hr : ElemRows 1 0 m.elems rows)
    {es : List Nat} {l : List Element} (hl : Elements m es l) :
    ∃ rs, List.Forall₂ (fun i r => rows[i]? = some r) es rs ∧
      rs.map ElemRow.eltyp = l.map Element.typ ∧
      rs.map ElemRow.elnox = l.map Element.ext ∧
      (rs.map fun r => npSlice ((m.elems.flatMap Element.nodes).map fun n : Nat => (n : Int))
        r.start r.stop) = (l.map fun e => e.nodes.map fun n : Nat => (n : Int)) ∧
      ∀ s : Nat, Ends s l (runningEnds s (rs.map fun r => (r.start, r.stop))) := by
  induction hl with
  | nil => exact ⟨[], .nil, rfl, rfl, rfl, fun _ => .nil⟩
  | @cons i e is l he _ ih =>
    obtain ⟨rs, h1, h2, h3, h4, h5⟩ := ih
    have hrow := hr.row he
    refine ⟨_, .cons hrow h1, by simp [h2], by simp [h3], ?_, ?_⟩
    · rw [List.map_cons, List.map_cons, h4]
      congr 1
      dsimp only
      rw [npSlice_nat, Nat.zero_add, Nat.add_sub_cancel_left, ← List.map_drop, ← List.map_take,
        flat_part he]
    · intro s
      rw [List.map_cons]
      unfold runningEnds
      have e1 : (s : Int) + (((0 + before m.elems i + e.nodes.length : Nat) : Int) -
          ((0 + before m.elems i : Nat) : Int)) = ((s + e.nodes.length : Nat) : Int) := by omega
      dsimp only
      rw [e1]
      exact .cons (h5 _)

theorem zip_map_fst_snd {α β γ : Type} (f : α → β) (g : α → γ) (l : List α) :
    (l.map f).zip (l.map g) = l.map fun a => (f a, g a) := by
  induction l with
  | nil => rfl
  | cons a l ih => simp [ih]

theorem connectivity_ok {d : Struc K} {m : Mesh K} (hd : Holds d m) {es : List Nat}
    {l : List Element} (hl : Elements m es l) (hne : l ≠ []) :
    ∃ offs, connectivity d (es.map fun i : Nat => (i : Int)) =
        .ok ((l.flatMap Element.nodes).map (fun n : Nat => (n : Int) - 1), offs) ∧
      Ends 0 l offs := by
  obtain ⟨rows, hg, hr⟩ := hd.elems
  obtain ⟨rs, h1, _, _, h4, h5⟩ := elements_rows hr hl
  refine ⟨_, ?_, h5 0⟩
  unfold connectivity need
  rw [hd.isOpen, hg]
  simp only [if_true, bind_ok]
  unfold varLenData
  rw [npTake_map, npTake_map, npTake_nat h1]
  simp only [Except.map, bind_ok]
  rw [zip_map_fst_snd, List.map_map]
  have e2 : ((fun b : Int × Int => npSlice ((m.elems.flatMap Element.nodes).map fun n : Nat => (n : Int))
      b.1 b.2) ∘ fun r : ElemRow => (r.start, r.stop)) = fun r : ElemRow =>
      npSlice ((m.elems.flatMap Element.nodes).map fun n : Nat => (n : Int)) r.start r.stop := rfl
  rw [e2, h4, npConcat_ok (by simpa using hne)]
  simp only [bind_ok, Except.ok.injEq, Prod.mk.injEq]
  refine ⟨?_, rfl⟩
  rw [List.map_flatten, List.map_map, List.map_flatMap, List.flatMap_def]
  simp [Function.comp_def]

theorem connectivity_empty {d : Struc K} {m : Mesh K} (hd : Holds d m) :
    connectivity d [] = .error .valueError := by
  obtain ⟨rows, hg, hr⟩ := hd.elems
  unfold connectivity need
  rw [hd.isOpen, hg]
  rfl

/-- relabelling gives the positions in the list of distinct nodes -/
theorem updateConnectivity_ok {flat : List Nat} {ns : List Nat} (hne : flat ≠ [])
    (hd : Distinct flat (ns.map (· + 1))) :
    ∃ con, updateConnectivity (flat.map fun n : Nat => (n : Int) - 1) = .ok con ∧
      List.Forall₂ (fun (c : Int) (n : Nat) => ∃ k : Nat, c = k ∧ (ns[k]?).map (· + 1) = some n)
        con flat := by
  have hu : npUnique (flat.map fun n : Nat => (n : Int) - 1) = ns.map fun n : Nat => (n : Int) := by
    apply npUnique_eq
    · rw [List.pairwise_map]
      have := hd.1
      rw [List.pairwise_map] at this
      exact this.imp fun h => by omega
    · intro x
      rw [List.mem_map, List.mem_map]
      constructor
      · rintro ⟨n, hn, rfl⟩
        exact ⟨n + 1, (hd.2 _).mp (List.mem_map.mpr ⟨n, hn, rfl⟩), by simp⟩
      · rintro ⟨n, hn, rfl⟩
        obtain ⟨k, hk, rfl⟩ := List.mem_map.mp ((hd.2 n).mpr hn)
        exact ⟨k, hk, by simp⟩
  have hnd : (ns.map fun n : Nat => (n : Int)).Nodup := by
    rw [← hu]; exact (npUnique_sorted _).imp fun h => ne_of_lt h
  have key : ∀ l : List Nat, (∀ n ∈ l, n ∈ flat) → ∃ ks : List Nat,
      (l.map fun n : Nat => (n : Int) - 1).mapM (dictIndex (ns.map fun n : Nat => (n : Int))) =
        .ok ks ∧ List.Forall₂ (fun (k n : Nat) => (ns[k]?).map (· + 1) = some n) ks l := by
    intro l hl
    induction l with
    | nil => exact ⟨[], rfl, .nil⟩
    | cons n l ih =>
      obtain ⟨ks, h1, h2⟩ := ih fun x hx => hl x (List.mem_cons_of_mem _ hx)
      obtain ⟨j, hj, rfl⟩ := List.mem_map.mp ((hd.2 n).mpr (hl n List.mem_cons_self))
      obtain ⟨k, hk, e⟩ := List.mem_iff_getElem.mp hj
      have hk' : ns[k]? = some j := by rw [← e]; exact List.getElem?_eq_getElem hk
      have hdi : dictIndex (ns.map fun n : Nat => (n : Int)) (((j + 1 : Nat) : Int) - 1) = .ok k := by
        apply dictIndex_nodup hnd
        rw [List.getElem?_map, hk']
        simp
      refine ⟨k :: ks, ?_, .cons (by rw [hk']; rfl) h2⟩
      rw [List.map_cons, List.mapM_cons, hdi, bind_ok, h1]
      rfl
  obtain ⟨ks, h1, h2⟩ := key flat fun _ h => h
  refine ⟨ks.map fun i : Nat => (i : Int), ?_, ?_⟩
  · unfold updateConnectivity
    rw [if_neg (by simpa using hne), hu, h1]
    rfl
  · rw [List.forall₂_map_left_iff]
    exact h2.imp fun a b h => ⟨a, rfl, h⟩

end Verif.Data
