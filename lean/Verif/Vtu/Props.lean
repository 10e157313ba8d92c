import Verif.Vtu.Lemmas

/-!
# Properties of the VTU writer: C45, C46, C47
-/

namespace Verif.Vtu
open Verif

/-! ## C46: reordering -/

/-- specification: the corner nodes first, then the mid side nodes (beam with 3 nodes: end nodes
first; quadratic quad), other element types unchanged -/
def vtkOrder {α : Type} : Nat → List α → List α
  | 23, [a, m, b] => [a, b, m]
  | 28, [a, ab, b, bc, c, cd, d, da] => [a, b, c, d, ab, bc, cd, da]
  | _, l => l

/-- specification for results: six node triangle -/
def vtkResOrder {α : Type} : Nat → List α → List α
  | 26, [a, ab, b, bc, c, ca] => [a, b, c, ab, bc, ca]
  | _, l => l

/-- end positions of consecutive blocks starting at `start` -/
def ends {α : Type} : Nat → List (List α) → List Nat
  | _, [] => []
  | start, b :: bs => (start + b.length) :: ends (start + b.length) bs

theorem permuteSlice_block {α : Type} (pre b post : List α) (ind : List Nat) (out : List α)
    (h : ind.mapM (pyIdx b) = .ok out) (hl : out.length = b.length) :
    permuteSlice (pre ++ b ++ post) pre.length (pre.length + b.length) ind
      = .ok (pre ++ out ++ post) := by
  have hsl : ((pre ++ b ++ post).drop pre.length).take (pre.length + b.length - pre.length) = b := by
    simp
  unfold permuteSlice
  simp only [hsl, h, bind_ok, hl, if_true]
  congr 2
  · simp
  · rw [← List.length_append, List.drop_left]

/-- **C46**, connectivity and results in one: with a table of index lists and blocks of the right
length, every block is reordered on its own and what follows the blocks stays. -/
theorem reorderData_blocks {α : Type} (tab : Nat → Option (List Nat))
    (spec : Nat → List α → List α) (ok : Nat → Nat → Prop)
    (htab : ∀ t b ind, tab t = some ind → ok t b.length →
      ind.mapM (pyIdx b) = .ok (spec t b) ∧ (spec t b).length = b.length)
    (hnone : ∀ t b, tab t = none → spec t b = b)
    (blocks : List (List α)) (types : List Nat) (pre rest : List α)
    (hlen : types.length = blocks.length)
    (hok : ∀ p ∈ types.zip blocks, ok p.1 p.2.length) :
    reorderData tab (pre ++ blocks.flatten ++ rest) pre.length (ends pre.length blocks) types
      = (pre ++ (List.zipWith spec types blocks).flatten ++ rest, none) := by
  induction blocks generalizing types pre with
  | nil =>
    have : types = [] := by simpa using hlen
    subst this
    simp [reorderData, ends]
  | cons b bs ih =>
    match types, hlen with
    | t :: ts, hlen =>
      have hlen' : ts.length = bs.length := by simpa using hlen
      have hok' : ∀ p ∈ ts.zip bs, ok p.1 p.2.length := fun p hp => hok p (by simp [hp])
      have hb := hok (t, b) (by simp)
      simp only [ends, reorderData]
      rcases ht : tab t with _ | ind
      · simp only
        have := ih ts (pre ++ b) hlen' hok'
        simp only [List.length_append] at this
        have e : pre ++ (b :: bs).flatten ++ rest = pre ++ b ++ bs.flatten ++ rest := by simp
        rw [e, this]
        simp [hnone t b ht]
      · obtain ⟨h1, h2⟩ := htab t b ind ht hb
        have hp := permuteSlice_block pre b (bs.flatten ++ rest) ind _ h1 h2
        have e : pre ++ (b :: bs).flatten ++ rest = pre ++ b ++ (bs.flatten ++ rest) := by simp
        simp only [e, hp]
        have := ih ts (pre ++ spec t b) hlen' hok'
        simp only [List.length_append, h2] at this
        have e2 : pre ++ spec t b ++ (bs.flatten ++ rest)
          = pre ++ spec t b ++ bs.flatten ++ rest := by simp
        rw [e2, this]
        simp

/-- number of nodes an element block must have for the tables to apply -/
def conLen (t n : Nat) : Prop := (t = 23 → n = 3) ∧ (t = 28 → n = 8)
def resLen (t n : Nat) : Prop := t = 26 → n = 6

theorem conTable_spec {α : Type} (t : Nat) (b : List α) (ind : List Nat)
    (h : conTable t = some ind) (hl : conLen t b.length) :
    ind.mapM (pyIdx b) = .ok (vtkOrder t b) ∧ (vtkOrder t b).length = b.length := by
  unfold conTable at h
  split at h
  · injection h with h; subst h
    have h3 := hl.1 rfl
    match b, h3 with
    | [x, y, z], _ => exact ⟨rfl, rfl⟩
  · injection h with h; subst h
    have h8 := hl.2 rfl
    match b, h8 with
    | [a, b, c, d, e, f, g, i], _ => exact ⟨rfl, rfl⟩
  · cases h

theorem resTable_spec {α : Type} (t : Nat) (b : List α) (ind : List Nat)
    (h : resTable t = some ind) (hl : resLen t b.length) :
    ind.mapM (pyIdx b) = .ok (vtkResOrder t b) ∧ (vtkResOrder t b).length = b.length := by
  unfold resTable at h
  split at h
  · injection h with h; subst h
    have h6 := hl rfl
    match b, h6 with
    | [a, b, c, d, e, f], _ => exact ⟨rfl, rfl⟩
  · cases h

theorem conTable_none {α : Type} (t : Nat) (b : List α) (h : conTable t = none) :
    vtkOrder t b = b := by
  unfold vtkOrder
  split
  · simp [conTable] at h
  · simp [conTable] at h
  · rfl

theorem resTable_none {α : Type} (t : Nat) (b : List α) (h : resTable t = none) :
    vtkResOrder t b = b := by
  unfold vtkResOrder
  split
  · simp [resTable] at h
  · rfl

/-- **C46.** Connectivity: every element's entries are put in VTK order within the element's own
slots; elements of other types and data behind the last element are untouched. -/
theorem reorder_connectivity {α : Type} (blocks : List (List α)) (types : List Nat)
    (rest : List α) (hlen : types.length = blocks.length)
    (hok : ∀ p ∈ types.zip blocks, (p.1 = 23 → p.2.length = 3) ∧ (p.1 = 28 → p.2.length = 8)) :
    reorderData conTable (blocks.flatten ++ rest) 0 (ends 0 blocks) types
      = ((List.zipWith vtkOrder types blocks).flatten ++ rest, none) := by
  have := reorderData_blocks conTable vtkOrder conLen conTable_spec conTable_none blocks types []
    rest hlen hok
  simpa using this

/-- **C46.** Element results -/
theorem reorder_results {α : Type} (blocks : List (List α)) (types : List Nat)
    (rest : List α) (hlen : types.length = blocks.length)
    (hok : ∀ p ∈ types.zip blocks, p.1 = 26 → p.2.length = 6) :
    reorderData resTable (blocks.flatten ++ rest) 0 (ends 0 blocks) types
      = ((List.zipWith vtkResOrder types blocks).flatten ++ rest, none) := by
  have := reorderData_blocks resTable vtkResOrder resLen resTable_spec resTable_none blocks types []
    rest hlen hok
  simpa using this

/-- **C46.** an element with the wrong number of entries raises and is not touched -/
theorem reorder_wrong_length {α : Type} (pre b rest : List α) (t : Nat) (os ts : List Nat)
    (h : t = 23 ∧ b.length ≠ 3 ∨ t = 28 ∧ b.length ≠ 8) :
    ∃ e, reorderData conTable (pre ++ b ++ rest) pre.length ((pre.length + b.length) :: os) (t :: ts)
      = (pre ++ b ++ rest, some e) := by
  have hsl : ((pre ++ b ++ rest).drop pre.length).take (pre.length + b.length - pre.length) = b := by
    simp
  have key : ∀ ind : List Nat, ind.length ≠ b.length →
      ∃ e, permuteSlice (pre ++ b ++ rest) pre.length (pre.length + b.length) ind = .error e := by
    intro ind hne
    unfold permuteSlice
    simp only [hsl]
    rcases hm : ind.mapM (pyIdx b) with e | out
    · exact ⟨e, rfl⟩
    · have hl := (mapM_ok_iff.mp hm).length_eq
      refine ⟨.valueError, ?_⟩
      simp only [bind_ok]
      rw [if_neg (by omega)]
  rcases h with ⟨rfl, hb⟩ | ⟨rfl, hb⟩
  · obtain ⟨e, he⟩ := key [0, 2, 1] (by simpa using Ne.symm hb)
    exact ⟨e, by simp only [reorderData, conTable, he]⟩
  · obtain ⟨e, he⟩ := key [0, 2, 4, 6, 1, 3, 5, 7] (by simpa using Ne.symm hb)
    exact ⟨e, by simp only [reorderData, conTable, he]⟩

/-- instance: a three node beam, a quad and an eight node shell, with data behind -/
example : reorderData conTable [1, 2, 3, 4, 5, 6, 7, 8, 9, 10, 11, 12, 13, 14, 15, 16] 0
    (ends 0 [[1, 2, 3], [4, 5, 6, 7], [8, 9, 10, 11, 12, 13, 14, 15]]) [23, 24, 28]
    = ([1, 3, 2, 4, 5, 6, 7, 8, 10, 12, 14, 9, 11, 13, 15, 16], none) := by decide

/-- Since the caller's connectivity array is changed in place, passing the same (already
reordered) array again gives a wrong node order for eight node shells. -/
theorem reorder_twice_wrong :
    ∃ con : List Nat,
      (reorderData conTable con 0 [8] [28]).2 = none ∧
      reorderData conTable (reorderData conTable con 0 [8] [28]).1 0 [8] [28]
        ≠ reorderData conTable con 0 [8] [28] :=
  ⟨[0, 1, 2, 3, 4, 5, 6, 7], by decide, by decide⟩

/-! ## C47: payload -/

/-- **C47.** base64 round trip for every byte string -/
theorem b64_roundtrip (bs : List Byte) : b64decode (b64encode bs) = some bs :=
  b64decode_encode bs

/-- length of the encoded text: four characters per started group of three -/
theorem b64encode_length (bs : List Byte) : (b64encode bs).length = 4 * ((bs.length + 2) / 3) := by
  fun_induction b64encode bs with
  | case1 => rfl
  | case2 => simp
  | case3 => simp
  | case4 a b c rest n ih => simp only [List.length_cons, ih]; omega

theorem flatten_length_const {α : Type} (l : List (List α)) (k : Nat)
    (h : ∀ r ∈ l, r.length = k) : l.flatten.length = l.length * k := by
  induction l with
  | nil => simp
  | cons r rs ih =>
    rw [List.flatten_cons, List.length_append, h r (by simp), ih fun x hx => h x (by simp [hx]),
      List.length_cons, Nat.succ_mul]; omega

/-- **C47.** What `add_data` writes for any array that can be written: one `DataArray` element
whose text decodes to an 8 byte little endian count followed by the raw bytes, the count being
the number of raw bytes. -/
theorem addData_payload (a : Arr) (name : Str) (comps : List Str) (s s' : St)
    (hwf : a.WF) (hfo : s.fileOpen = true) (h : addData a name comps s = (s', none)) :
    ∃ tag attrs t hdr, s'.out = s.out ++ render s.elements.length (.elem tag attrs [.text t]) ∧
      tag = "DataArray".toList ∧ ("Name".toList, name) ∈ attrs ∧
      b64decode t = some (hdr ++ a.rows.flatten) ∧ hdr.length = 8 ∧
      leVal hdr = a.rows.flatten.length := by
  unfold addData at h
  split at h
  · cases h
  · obtain ⟨-, x, hx, rfl⟩ := writeArray_ok_iff h hfo
    cases hx with
    | mk nc vt t hdr hn hv ht hl hh =>
      refine ⟨_, _, t, hdr, rfl, rfl, by simp, ht, hl, ?_⟩
      rw [hh, flatten_length_const _ _ hwf]
      simp only [Arr.nbytes, Nat.mul_assoc]

example : b64encode (leBytes 8 3 ++ [255, 0, 7]) = "AwAAAAAAAAD/AAc=".toList := by decide

/-! ## C45: well formed document -/

theorem step_ok {s s' : St} {d : Doc} {c : Call} (h : Rel s d) (hc : c ≠ .close)
    (hr : c.run s = (s', none)) : ∃ d', DocStep d c d' ∧ Rel s' d' := by
  cases c with
  | newPiece p c o t => exact newPiece_ok h hr
  | startPointdata =>
    rcases start_point h with ⟨-, he⟩ | ⟨s1, d', he, hd, hrel⟩
    · rw [show Call.run .startPointdata s = startPointdata s from rfl] at hr
      rw [he] at hr; cases hr
    · rw [show Call.run .startPointdata s = startPointdata s from rfl] at hr
      rw [he] at hr; injection hr with hr _; subst hr; exact ⟨d', hd, hrel⟩
  | startCelldata =>
    rcases start_cell h with ⟨-, he⟩ | ⟨s1, d', he, hd, hrel⟩
    · rw [show Call.run .startCelldata s = startCelldata s from rfl] at hr
      rw [he] at hr; cases hr
    · rw [show Call.run .startCelldata s = startCelldata s from rfl] at hr
      rw [he] at hr; injection hr with hr _; subst hr; exact ⟨d', hd, hrel⟩
  | addData a n cs =>
    simp only [Call.run] at hr
    rcases h with ⟨-, ⟨-, -, -, -, -, hpd, hcd, -⟩, -⟩ | ⟨⟨-, -, -, -, -, -, -, -, -, -, hpd, hcd, -, -⟩, -⟩ | h
    · rw [addData_closed _ _ _ hpd hcd] at hr; cases hr
    · rw [addData_closed _ _ _ hpd hcd] at hr; cases hr
    · rw [addData_inData _ _ _ h] at hr
      obtain ⟨-, x, hx, hs'⟩ := writeArray_ok_iff hr h.fileOpen
      obtain ⟨ds, p, ss, sec, hd, hsec, -, hin⟩ := h.add hx hs'
      subst hd
      exact ⟨_, .addData ds p ss sec a n cs hsec, Or.inr (Or.inr hin)⟩
  | addDataCellpoints a n cs =>
    simp only [Call.run, addDataCellpoints] at hr
    rcases hcur : s.cur with _ | ⟨offs, typs⟩
    · simp [hcur] at hr
    · simp only [hcur] at hr
      rcases hre : reorderData resTable a.rows 0 offs typs with ⟨rows, _ | e⟩
      · simp only [hre] at hr
        rcases h with ⟨-, ⟨-, -, -, -, -, hpd, hcd, -⟩, -⟩ | ⟨⟨-, -, -, -, -, -, -, -, -, -, hpd, hcd, -, -⟩, -⟩ | h
        · rw [addData_closed _ _ _ hpd hcd] at hr; cases hr
        · rw [addData_closed _ _ _ hpd hcd] at hr; cases hr
        · rw [addData_inData _ _ _ h] at hr
          obtain ⟨-, x, hx, hs'⟩ := writeArray_ok_iff hr h.fileOpen
          obtain ⟨ds, p, ss, sec, hd, hsec, hc', hin⟩ := h.add hx hs'
          subst hd
          rw [hcur] at hc'
          injection hc' with hc'
          injection hc' with h1 h2
          subst h1 h2
          exact ⟨_, .addCellpoints ds p ss sec a n cs rows hsec hre, Or.inr (Or.inr hin)⟩
      · simp [hre] at hr
  | close => exact absurd rfl hc

theorem writeArray_err {a : Arr} {n : Str} {cs : List Str} {s s' : St} {e : Err}
    (h : writeArray a n cs s = (s', some e)) (he : e ≠ .structError) (hfo : s.fileOpen = true) :
    s' = s := by
  rcases writeArray_cases a n cs s hfo with ⟨-, x, -, h'⟩ | ⟨-, -, e', -, h'⟩ |
    ⟨-, s'', e', h', h''⟩
  · rw [h] at h'; cases h'
  · rw [h] at h'; injection h' with h' _
  · rw [h] at h'
    injection h' with h1 h2
    injection h2 with h2
    rcases h'' with ⟨-, h3⟩ | h3
    · rw [h1, h3]
    · exact absurd (h2.trans h3) he

/-- **C45.** A call other than `new_piece` that raises (anything but the byte count overflow)
leaves the writer and the file exactly as they were. -/
theorem refused_no_effect {s s' : St} {d : Doc} {c : Call} {e : Err} (h : Rel s d)
    (hc : c.isSmall = true) (he : e ≠ .structError) (hr : c.run s = (s', some e)) : s' = s := by
  have add : ∀ (a : Arr) (n : Str) (cs : List Str), addData a n cs s = (s', some e) → s' = s := by
    intro a n cs hr
    rcases h with ⟨-, ⟨-, -, -, -, -, hpd, hcd, -⟩, -⟩ | ⟨⟨-, -, -, -, -, -, -, -, -, -, hpd, hcd, -, -⟩, -⟩ | h
    · rw [addData_closed _ _ _ hpd hcd] at hr; injection hr with hr _; exact hr.symm
    · rw [addData_closed _ _ _ hpd hcd] at hr; injection hr with hr _; exact hr.symm
    · rw [addData_inData _ _ _ h] at hr
      exact writeArray_err hr he h.fileOpen
  cases c with
  | newPiece p c o t => simp [Call.isSmall] at hc
  | close => simp [Call.isSmall] at hc
  | startPointdata =>
    rcases start_point h with ⟨-, h'⟩ | ⟨s1, d', h', -, -⟩
    · rw [show Call.run .startPointdata s = startPointdata s from rfl, h'] at hr
      injection hr with hr _; exact hr.symm
    · rw [show Call.run .startPointdata s = startPointdata s from rfl, h'] at hr
      cases hr
  | startCelldata =>
    rcases start_cell h with ⟨-, h'⟩ | ⟨s1, d', h', -, -⟩
    · rw [show Call.run .startCelldata s = startCelldata s from rfl, h'] at hr
      injection hr with hr _; exact hr.symm
    · rw [show Call.run .startCelldata s = startCelldata s from rfl, h'] at hr
      cases hr
  | addData a n cs => exact add a n cs hr
  | addDataCellpoints a n cs =>
    simp only [Call.run, addDataCellpoints] at hr
    rcases hcur : s.cur with _ | ⟨offs, typs⟩
    · simp only [hcur] at hr; injection hr with hr _; exact hr.symm
    · simp only [hcur] at hr
      rcases hre : reorderData resTable a.rows 0 offs typs with ⟨rows, _ | e'⟩
      · simp only [hre] at hr; exact add _ n cs hr
      · simp only [hre] at hr; injection hr with hr _; exact hr.symm

theorem run_rel (s : St) (d : Doc) (calls : List Call) (h : Rel s d)
    (hnc : Call.close ∉ calls)
    (herr : ∀ p ∈ (outcomes s calls).1, ∀ e, p.2 = some e →
      p.1.isSmall = true ∧ e ≠ .structError) :
    ∃ d', DocSteps d (((outcomes s calls).1.filter (fun p => p.2.isNone)).map Prod.fst) d' ∧
      Rel (outcomes s calls).2 d' := by
  induction calls generalizing s d with
  | nil => exact ⟨d, .nil d, h⟩
  | cons c cs ih =>
    have hc : c ≠ .close := fun e => hnc (by simp [e])
    have hcs : Call.close ∉ cs := fun e => hnc (by simp [e])
    simp only [outcomes] at herr ⊢
    rcases hr : c.run s with ⟨s1, _ | e⟩
    · obtain ⟨d1, hd1, hrel⟩ := step_ok h hc hr
      obtain ⟨d', hds, hrel'⟩ := ih s1 d1 hrel hcs
        (fun p hp e he => herr p (by rw [hr]; exact List.mem_cons_of_mem _ hp) e he)
      exact ⟨d', .cons hd1 hds, hrel'⟩
    · obtain ⟨hsm, hne⟩ := herr (c, some e) (by rw [hr]; exact List.mem_cons_self) e rfl
      have hs := refused_no_effect h hsm hne hr
      subst hs
      obtain ⟨d', hds, hrel'⟩ := ih s1 d h hcs
        (fun p hp e he => herr p (by rw [hr]; exact List.mem_cons_of_mem _ hp) e he)
      exact ⟨d', hds, hrel'⟩

/-- **C45.** For every history of calls in which `new_piece` did not raise (other calls may have
been refused), closing the writer succeeds and the file is the text of one XML tree
`VTKFile > UnstructuredGrid > Piece*`, each piece holding `Points`, `Cells` and then its data
sections, with exactly the arrays of the calls that were not refused. -/
theorem vtu_document (calls : List Call) (hnc : Call.close ∉ calls)
    (herr : ∀ p ∈ (outcomes init.1 calls).1, ∀ e, p.2 = some e →
      p.1.isSmall = true ∧ e ≠ .structError) :
    ∃ d x s', DocSteps [] (((outcomes init.1 calls).1.filter (fun p => p.2.isNone)).map Prod.fst) d ∧
      DocXml d x ∧ close (outcomes init.1 calls).2 = (s', none) ∧ s'.out = render 0 x := by
  obtain ⟨d, hds, hrel⟩ := run_rel init.1 [] calls rel_init.2 hnc herr
  obtain ⟨s', x, hc, hx, ho, -⟩ := close_rel hrel
  exact ⟨d, x, s', hds, hx, hc, ho⟩

/-- **C45.** which calls are refused in a reachable state: starting a section needs a piece,
adding data needs a section -/
theorem vtu_legal (s : St) (d : Doc) (h : Rel s d) :
    (d = [] → (startPointdata s).2 = some .vtkError ∧ (startCelldata s).2 = some .vtkError) ∧
    (d ≠ [] → (startPointdata s).2 = none ∧ (startCelldata s).2 = none) ∧
    (∀ a n cs, (∀ p, d.getLast? = some p → p.sections = []) →
      (addData a n cs s).2 = some .vtkError) ∧
    (∀ a n cs p, d.getLast? = some p → p.sections ≠ [] → Writable a →
      (addData a n cs s).2 = none) ∧
    (∀ p c o t rows vt, Writable p → reorderData conTable c.rows 0 o.vals t.vals = (rows, none) →
      Writable { c with rows := rows } → Writable o.toArr → t.vals ≠ [] →
      List.Forall₂ (fun a b => (a, b) ∈ vtkCellTypes) t.vals vt →
      Writable (IArr.toArr ⟨"int64", 8, vt⟩) → (newPiece p c o t s).2 = none) := by
  have hsp := start_point h
  have hsc := start_cell h
  have hemp : d = [] → s.pieceOpen = false := by
    intro hd
    rcases h with ⟨-, ⟨-, -, -, -, hpo, -⟩, -⟩ | ⟨⟨ds, p, _, _, hd', -⟩, -⟩ | ⟨ds, p, _, _, _, _, hd', -⟩
    · exact hpo
    · rw [hd] at hd'; simp at hd'
    · rw [hd] at hd'; simp at hd'
  refine ⟨?_, ?_, ?_, ?_, ?_⟩
  · intro hd
    have := hemp hd
    constructor
    · simp [startPointdata, this]
    · simp [startCelldata, this]
  · intro hd
    constructor
    · rcases hsp with ⟨h0, -⟩ | ⟨s', d', he, -⟩
      · exact absurd h0 hd
      · exact congrArg Prod.snd he
    · rcases hsc with ⟨h0, -⟩ | ⟨s', d', he, -⟩
      · exact absurd h0 hd
      · exact congrArg Prod.snd he
  · intro a n cs hs
    rcases h with ⟨-, ⟨-, -, -, -, -, hpd, hcd, -⟩, -⟩ | ⟨⟨-, -, -, -, -, -, -, -, -, -, hpd, hcd, -, -⟩, -⟩ | h
    · rw [addData_closed _ _ _ hpd hcd]
    · rw [addData_closed _ _ _ hpd hcd]
    · obtain ⟨ds, p, -, -, sec, -, hd, -⟩ := h
      have := hs _ (by rw [hd]; simp; rfl)
      simp at this
  · intro a n cs p hp hps hw
    rcases h with ⟨hd, -⟩ | ⟨-, hp'⟩ | h
    · simp [hd] at hp
    · exact absurd (hp' p hp) hps
    · rw [addData_inData _ _ _ h]
      obtain ⟨x, -, e⟩ := writeArray_writable a n cs s h.fileOpen hw
      exact congrArg Prod.snd e
  · intro p c o t rows vt h1 h2 h3 h4 h5 h6 h7
    obtain ⟨s', e⟩ := newPiece_complete h h1 h2 h3 h4 h5 vt h6 h7
    exact congrArg Prod.snd e

/-- **C45.** after a close nothing is ever written again, and every later call raises, for any
number of later calls (exceptions caught) -/
theorem closed_forever (s : St) (h : s.fileOpen = false) (calls : List Call) :
    (outcomes s calls).2.out = s.out ∧ ∀ p ∈ (outcomes s calls).1, p.2 ≠ none := by
  induction calls generalizing s with
  | nil => exact ⟨rfl, fun p hp => absurd hp (by simp [outcomes])⟩
  | cons c cs ih =>
    obtain ⟨s1, e, h1, h2, h3⟩ := dead_call c s h
    obtain ⟨h4, h5⟩ := ih s1 h3
    simp only [outcomes, h1]
    refine ⟨h4.trans h2, ?_⟩
    intro p hp
    rcases List.mem_cons.mp hp with rfl | hp
    · simp
    · exact h5 p hp

/-! ### a concrete run -/

def exPoints : Arr := ⟨"float32", 4, [3], [[0,0,0,0, 0,0,0,0, 0,0,0,0], [0,0,128,63, 0,0,0,0, 0,0,0,0]]⟩
def exCon : Arr := ⟨"int32", 4, [], [[0,0,0,0], [1,0,0,0]]⟩
def exCalls : List Call :=
  [.addData exCon "early".toList [], .newPiece exPoints exCon ⟨"int32", 4, [2]⟩ ⟨"int32", 4, [15]⟩,
   .startPointdata, .addData exPoints "disp".toList ["x".toList, "y".toList, "z".toList],
   .startCelldata, .addData exCon "bad".toList []]

/-- the hypotheses of `vtu_document` hold for a run with a refused call -/
example : Call.close ∉ exCalls ∧ ((outcomes init.1 exCalls).1.map Prod.snd
    = [some .vtkError, none, none, none, none, none]) ∧
    (close (outcomes init.1 exCalls).2).2 = none := by decide +kernel

/-- After `new_piece` has raised half way, retrying `close` can "succeed" and leave an unbalanced
file: here the three dimensional points array is refused after `<Points>` was written; the
first `close` raises, the second returns, and `<Points>` is never closed. -/
theorem close_retry_unbalanced :
    let bad : Arr := ⟨"float32", 4, [3, 3], []⟩
    let s1 := (newPiece bad exCon ⟨"int32", 4, [2]⟩ ⟨"int32", 4, [15]⟩ init.1).1
    let s2 := (close s1).1
    (close s1).2 = some .vtkError ∧ (close s2).2 = none ∧
      (close s2).1.out = "<VTKFile type=\"UnstructuredGrid\" version=\"1.0\" byte_order=\"LittleEndian\" header_type=\"UInt64\">\n  <UnstructuredGrid>\n    <Piece NumberOfPoints=\"0\" NumberOfCells=\"1\">\n      <Points>\n    </Piece>\n  </UnstructuredGrid>\n</VTKFile>\n".toList := by
  decide +kernel

/-- An unsupported element type makes `new_piece` raise KeyError, after which the writer can
never be closed: the piece is marked open but was never started. -/
theorem unsupported_type_blocks_close :
    let s1 := (newPiece exPoints exCon ⟨"int32", 4, [2]⟩ ⟨"int32", 4, [16]⟩ init.1).1
    (newPiece exPoints exCon ⟨"int32", 4, [2]⟩ ⟨"int32", 4, [16]⟩ init.1).2 = some .keyError ∧
    (close s1).2 = some .vtkError ∧ (close (close s1).1).2 = some .vtkError ∧
    (close (close (close s1).1).1).2 = some .indexError := by
  decide +kernel

end Verif.Vtu
