import Verif.Vtu.Spec

/-!
# Helper lemmas about the VTU writer
-/

set_option linter.unusedSimpArgs false

namespace Verif.Vtu
open Verif

/-! ## base64 -/

theorem b64val_b64char : ∀ n, n < 64 → b64val (b64char n) = some n := by decide

theorem b64char_ne_pad : ∀ n, n < 64 → b64char n ≠ '=' := by decide

theorem byte_eq (b : Byte) (n : Nat) (h : n = b.toNat) : UInt8.ofNat n = b := by
  subst h; simp

theorem b64decode_encode (bs : List Byte) : b64decode (b64encode bs) = some bs := by
  fun_induction b64encode bs with
  | case1 => rfl
  | case2 a =>
    have ha := a.toNat_lt
    rename_i n
    have h1 : n / 262144 < 64 := by omega
    have h2 : n / 4096 % 64 < 64 := by omega
    simp only [b64decode, b64val_b64char _ h1, b64val_b64char _ h2, Option.bind_eq_bind,
      Option.bind_some]
    rw [if_pos (by omega), byte_eq a _ (by omega)]
  | case3 a b =>
    have ha := a.toNat_lt
    have hb := b.toNat_lt
    rename_i n
    have h1 : n / 262144 < 64 := by omega
    have h2 : n / 4096 % 64 < 64 := by omega
    have h3 : n / 64 % 64 < 64 := by omega
    have hne := b64char_ne_pad _ h3
    rw [b64decode]
    · simp only [b64val_b64char _ h1, b64val_b64char _ h2, b64val_b64char _ h3,
        Option.bind_eq_bind, Option.bind_some]
      rw [if_pos (by omega), byte_eq a _ (by omega), byte_eq b _ (by omega)]
    · exact hne
  | case4 a b c rest n ih =>
    have ha := a.toNat_lt
    have hb := b.toNat_lt
    have hc := c.toNat_lt
    have h1 : n / 262144 < 64 := by omega
    have h2 : n / 4096 % 64 < 64 := by omega
    have h3 : n / 64 % 64 < 64 := by omega
    have h4 : n % 64 < 64 := by omega
    rw [b64decode]
    · simp only [b64val_b64char _ h1, b64val_b64char _ h2, b64val_b64char _ h3,
        b64val_b64char _ h4, Option.bind_eq_bind, Option.bind_some, ih]
      rw [byte_eq a _ (by omega), byte_eq b _ (by omega), byte_eq c _ (by omega)]
    · intro h _; exact absurd h (b64char_ne_pad _ h3)
    · intro h; exact absurd h (b64char_ne_pad _ h4)

theorem leBytes_length (k n : Nat) : (leBytes k n).length = k := by
  induction k generalizing n with
  | zero => rfl
  | succ k ih => simp [leBytes, ih]

theorem leVal_leBytes (k n : Nat) (h : n < 256 ^ k) : leVal (leBytes k n) = n := by
  induction k generalizing n with
  | zero => simp at h; simp [leBytes, leVal, h]
  | succ k ih =>
    have hq : n / 256 < 256 ^ k := by
      rw [Nat.div_lt_iff_lt_mul (by decide)]; rw [Nat.pow_succ] at h; exact h
    have hm : (UInt8.ofNat (n % 256)).toNat = n % 256 := by
      rw [UInt8.toNat_ofNat']; omega
    simp only [leBytes, leVal, ih _ hq, hm]; omega

/-! ## text -/

theorem indent_eq (d : Nat) : indent d = blanks d := by
  induction d with
  | zero => rfl
  | succ d ih =>
    simp only [indent, ih, blanks, Nat.mul_succ]
    simp [List.replicate_succ]

theorem attrStr_eq (l : List (Str × Str)) : attrStr l = attrText l := by
  induction l with
  | nil => rfl
  | cons kv l ih => simp [attrStr, attrText, ih, List.flatMap_cons]

theorem compAttrs_eq (cs : List Str) (i : Nat) :
    compAttrs i cs = (cs.zipIdx i).map fun (c, i) => ("ComponentName".toList ++ natStr i, c) := by
  induction cs generalizing i with
  | nil => rfl
  | cons c cs ih => simp [compAttrs, ih]

theorem vtkDatatype_iff (d v : String) :
    vtkDatatype d = some v ↔ (d, v) ∈ vtkNames := by
  unfold vtkDatatype vtkNames
  split <;> simp_all [eq_comm]

theorem vtkTypeId_iff (a b : Nat) : vtkTypeId a = some b ↔ (a, b) ∈ vtkCellTypes := by
  unfold vtkTypeId vtkCellTypes
  split <;> simp_all <;> omega

/-! ## sequencing -/

theorem seq_ok {f g : Op} {s s2 : St} :
    (f ;; g) s = (s2, none) ↔ ∃ s1, f s = (s1, none) ∧ g s1 = (s2, none) := by
  unfold Op.seq
  rcases h : f s with ⟨s1, _ | e⟩ <;> simp

theorem seq_of_ok {f g : Op} {s s1 : St} (h : f s = (s1, none)) : (f ;; g) s = g s1 := by
  simp [Op.seq, h]

theorem seq_of_err {f g : Op} {s s1 : St} {e : Err} (h : f s = (s1, some e)) :
    (f ;; g) s = (s1, some e) := by
  simp [Op.seq, h]

theorem emit_open {t : Str} {s : St} (h : s.fileOpen = true) :
    emit t s = ({ s with out := s.out ++ t }, none) := by simp [emit, h]

theorem openElement_open {tag : Str} {at' : List (Str × Str)} {s : St} (h : s.fileOpen = true) :
    openElement tag at' s =
      ({ s with out := s.out ++ startTag s.elements.length tag at',
                elements := tag :: s.elements }, none) := by
  simp [openElement, emit, h, startTag, indent_eq, attrStr_eq]

theorem closeElement_open {tag : Str} {ts : List Str} {s : St} (h : s.fileOpen = true)
    (he : s.elements = tag :: ts) :
    closeElement tag s =
      ({ s with out := s.out ++ endTag ts.length tag, elements := ts }, none) := by
  simp [closeElement, emit, h, he, endTag, indent_eq]

/-- the three ways `_write_array` can end while the file is open -/
theorem writeArray_cases (arr : Arr) (name : Str) (comps : List Str) (s : St)
    (h : s.fileOpen = true) :
    (Writable arr ∧ ∃ x, DataXml ⟨arr, name, comps⟩ x ∧
      writeArray arr name comps s
        = ({ s with out := s.out ++ render s.elements.length x }, none)) ∨
    (¬ Writable arr ∧ arr.nbytes < 2 ^ 64 ∧
      ∃ e, (e = .vtkError ∨ e = .keyError) ∧ writeArray arr name comps s = (s, some e)) ∨
    (¬ Writable arr ∧ ∃ s' e, writeArray arr name comps s = (s', some e) ∧
      ((e = .vtkError ∨ e = .keyError) ∧ s' = s ∨ e = .structError)) := by
  unfold writeArray
  rcases ht : arr.tail with _ | ⟨n, _ | ⟨m, tl⟩⟩
  case cons.cons =>
    right; right
    refine ⟨?_, s, .vtkError, by simp, Or.inl ⟨Or.inl rfl, rfl⟩⟩
    rintro ⟨h1, -⟩; simp [ht] at h1
  all_goals
    rcases hd : vtkDatatype arr.dtype with _ | vt
    · right; right
      refine ⟨?_, s, .keyError, by simp, Or.inl ⟨Or.inr rfl, rfl⟩⟩
      rintro ⟨-, ⟨vt, h2⟩, -⟩
      have := (vtkDatatype_iff arr.dtype vt).mpr h2
      rw [hd] at this; cases this
    · have hv := (vtkDatatype_iff _ _).mp hd
      simp only
      rw [seq_of_ok (openElement_open h)]
      rw [seq_of_ok (f := fun s => emit (indent s.elements.length) s) (emit_open (by simpa using h))]
      have hsz : arr.size * arr.itemsize = arr.nbytes := rfl
      simp only [packQ, hsz]
      by_cases hq : arr.nbytes < 2 ^ 64
      · left
        refine ⟨⟨by simp [ht], ⟨vt, hv⟩, hq⟩, _,
          DataXml.mk ⟨arr, name, comps⟩ _ vt (b64encode (leBytes 8 arr.nbytes ++ arr.raw))
            (leBytes 8 arr.nbytes) (by simp [ncomp, ht]; rfl) hv (b64decode_encode _)
            (leBytes_length _ _) (leVal_leBytes _ _ (by simpa using hq)), ?_⟩
        simp only [hq, if_true]
        rw [seq_of_ok (emit_open (by simpa using h)), seq_of_ok (emit_open (by simpa using h)),
          closeElement_open (ts := s.elements) (by simpa using h) rfl]
        simp [render, renderAll, indent_eq, compAttrs_eq, startTag, endTag]
      · right; right
        refine ⟨fun hw => hq hw.2.2, ?_⟩
        simp only [hq, if_false]
        exact ⟨_, _, seq_of_err rfl, Or.inr rfl⟩

theorem writeArray_ok_iff {arr : Arr} {name : Str} {comps : List Str} {s s' : St}
    (hok : writeArray arr name comps s = (s', none)) (h : s.fileOpen = true) :
    Writable arr ∧ ∃ x, DataXml ⟨arr, name, comps⟩ x ∧
      s' = { s with out := s.out ++ render s.elements.length x } := by
  rcases writeArray_cases arr name comps s h with ⟨hw, x, hx, he⟩ | ⟨-, -, e, -, he⟩ |
    ⟨-, s'', e, he, -⟩
  · rw [hok] at he; injection he with he _; exact ⟨hw, x, hx, he⟩
  · rw [hok] at he; cases he
  · rw [hok] at he; cases he

theorem writeArray_writable (arr : Arr) (name : Str) (comps : List Str) (s : St)
    (h : s.fileOpen = true) (hw : Writable arr) :
    ∃ x, DataXml ⟨arr, name, comps⟩ x ∧
      writeArray arr name comps s = ({ s with out := s.out ++ render s.elements.length x }, none) := by
  rcases writeArray_cases arr name comps s h with ⟨-, x, hx, he⟩ | ⟨hn, -⟩ | ⟨hn, -⟩
  · exact ⟨x, hx, he⟩
  · exact absurd hw hn
  · exact absurd hw hn

/-! ## typeidmapper -/

theorem typeidmapper_ok (t : IArr) (v : IArr) :
    typeidmapper t = .ok v ↔ t.vals ≠ [] ∧ v.dtype = "int64" ∧ v.itemsize = 8 ∧
      List.Forall₂ (fun a b => (a, b) ∈ vtkCellTypes) t.vals v.vals := by
  have hl : ∀ a b, lookupTypeId a = .ok b ↔ (a, b) ∈ vtkCellTypes := by
    intro a b
    rw [← vtkTypeId_iff]; unfold lookupTypeId
    rcases vtkTypeId a with _ | x <;> simp
  unfold typeidmapper
  rcases hv : t.vals with _ | ⟨a, as⟩
  · simp
  · simp only [bind_eq_ok, mapM_ok_iff, Except.ok.injEq, ne_eq, reduceCtorEq, not_false_eq_true,
      true_and]
    constructor
    · rintro ⟨out, h1, rfl⟩
      exact ⟨rfl, rfl, h1.imp (fun _ _ h => (hl _ _).mp h)⟩
    · rintro ⟨h1, h2, h3⟩
      refine ⟨v.vals, h3.imp (fun _ _ h => (hl _ _).mpr h), ?_⟩
      cases v; simp_all

/-! ## the state relation -/

/-- text before the first piece -/
def headText : Str :=
  startTag 0 "VTKFile".toList
    [("type".toList, "UnstructuredGrid".toList), ("version".toList, "1.0".toList),
     ("byte_order".toList, "LittleEndian".toList), ("header_type".toList, "UInt64".toList)]
  ++ startTag 1 "UnstructuredGrid".toList []

def pieceStart (p : Piece) : Str :=
  startTag 2 "Piece".toList
    [("NumberOfPoints".toList, natStr p.points.rows.length),
     ("NumberOfCells".toList, natStr p.offsets.vals.length)]

/-- state with no piece open -/
def Flat (s : St) (d : Doc) : Prop :=
  ∃ xs, List.Forall₂ PieceXml d xs ∧ s.out = headText ++ renderAll 2 xs ∧ s.fileOpen = true ∧
    s.pieceOpen = false ∧ s.pdOpen = false ∧ s.cdOpen = false ∧
    s.elements = ["UnstructuredGrid".toList, "VTKFile".toList]

/-- children of a piece element that are complete -/
inductive PieceKids : Piece → List Xml → Prop
  | mk (p : Piece) (x1 x2 x3 x4 : Xml) (xs : List Xml)
      (h1 : DataXml ⟨p.points, "points".toList, []⟩ x1)
      (h2 : DataXml ⟨p.con, "connectivity".toList, []⟩ x2)
      (h3 : DataXml ⟨p.offsets.toArr, "offsets".toList, []⟩ x3)
      (h4 : DataXml ⟨p.vtkTypes.toArr, "types".toList, []⟩ x4)
      (h : List.Forall₂ SectionXml p.sections xs) :
      PieceKids p (.elem "Points".toList [] [x1] :: .elem "Cells".toList [] [x2, x3, x4] :: xs)

theorem PieceKids.xml {p : Piece} {ks : List Xml} (h : PieceKids p ks) :
    PieceXml p (.elem "Piece".toList
        [("NumberOfPoints".toList, natStr p.points.rows.length),
         ("NumberOfCells".toList, natStr p.offsets.vals.length)] ks) := by
  cases h with
  | mk x1 x2 x3 x4 xs h1 h2 h3 h4 h => exact .mk p x1 x2 x3 x4 xs h1 h2 h3 h4 h

theorem PieceKids.snoc {p : Piece} {ks : List Xml} {s : Section} {x : Xml} (h : PieceKids p ks)
    (hx : SectionXml s x) :
    PieceKids { p with sections := p.sections ++ [s] } (ks ++ [x]) := by
  cases h with
  | mk x1 x2 x3 x4 xs h1 h2 h3 h4 h =>
    exact .mk { p with sections := p.sections ++ [s] } x1 x2 x3 x4 (xs ++ [x]) h1 h2 h3 h4
      (List.rel_append h (.cons hx .nil))

/-- state with the last piece open and no data section open -/
def InPiece (s : St) (d : Doc) : Prop :=
  ∃ ds p xs ks, d = ds ++ [p] ∧ List.Forall₂ PieceXml ds xs ∧ PieceKids p ks ∧
    s.out = headText ++ renderAll 2 xs ++ pieceStart p ++ renderAll 3 ks ∧ s.fileOpen = true ∧
    s.pieceOpen = true ∧ s.pdOpen = false ∧ s.cdOpen = false ∧
    s.elements = ["Piece".toList, "UnstructuredGrid".toList, "VTKFile".toList] ∧
    s.cur = some (p.offsets.vals, p.types.vals)

/-- state with a data section open -/
def InData (s : St) (d : Doc) : Prop :=
  ∃ ds p xs ks sec ys, d = ds ++ [{ p with sections := p.sections ++ [sec] }] ∧
    List.Forall₂ PieceXml ds xs ∧ PieceKids p ks ∧ List.Forall₂ DataXml sec.arrays ys ∧
    s.out = headText ++ renderAll 2 xs ++ pieceStart p ++ renderAll 3 ks
      ++ startTag 3 sec.kind.tag [] ++ renderAll 4 ys ∧ s.fileOpen = true ∧
    s.pieceOpen = true ∧
    s.pdOpen = (sec.kind == .point) ∧ s.cdOpen = (sec.kind == .cell) ∧
    s.elements = [sec.kind.tag, "Piece".toList, "UnstructuredGrid".toList, "VTKFile".toList] ∧
    s.cur = some (p.offsets.vals, p.types.vals)

/-- the states reached by successful calls -/
def Rel (s : St) (d : Doc) : Prop :=
  (d = [] ∧ Flat s d ∧ s.cur = none) ∨ (InPiece s d ∧ ∀ p, d.getLast? = some p → p.sections = []) ∨
    InData s d

theorem renderAll_append (n : Nat) (xs ys : List Xml) :
    renderAll n (xs ++ ys) = renderAll n xs ++ renderAll n ys := by
  induction xs with
  | nil => rfl
  | cons x xs ih => simp [renderAll, ih]

theorem rel_init : (init.2 = none) ∧ Rel init.1 [] := by
  have h : init = ({ emptySt with
      out := headText, elements := ["UnstructuredGrid".toList, "VTKFile".toList] }, none) := by
    unfold init
    rw [seq_of_ok (openElement_open rfl), openElement_open rfl]
    simp [emptySt, headText]
  rw [h]
  exact ⟨rfl, Or.inl ⟨rfl, ⟨[], .nil, by simp [renderAll], rfl, rfl, rfl, rfl, rfl⟩, rfl⟩⟩

theorem tag_point : Kind.tag .point = "PointData".toList := rfl
theorem tag_cell : Kind.tag .cell = "CellData".toList := rfl

/-- `_close_data` in a data section -/
theorem closeData_inData {s : St} {d : Doc} (h : InData s d) :
    ∃ s', closeData s = (s', none) ∧ InPiece s' d := by
  obtain ⟨ds, p, xs, ks, sec, ys, hd, hxs, hks, hys, hout, hfo, hpo, hpd, hcd, hel, hcur⟩ := h
  have hsec : SectionXml sec (.elem sec.kind.tag [] ys) := .mk sec ys hys
  cases hk : sec.kind with
  | point =>
    rw [hk] at hpd hcd hout
    have hel' := hel
    rw [hk, tag_point] at hel'
    refine ⟨{ s with
        out := s.out ++ endTag 3 "PointData".toList, pdOpen := false,
        elements := ["Piece".toList, "UnstructuredGrid".toList, "VTKFile".toList] }, ?_,
      ds, { p with sections := p.sections ++ [sec] }, xs, _, hd, hxs, hks.snoc hsec,
      ?_, ?_, ?_, ?_, ?_, ?_, ?_⟩
    · unfold closeData
      rw [if_pos (by simpa using hpd), seq_of_ok (closeElement_open hfo hel')]
      simp only [modify, List.length_cons, List.length_nil, Nat.reduceAdd]
    · simp only [hout, hk, tag_point, renderAll_append, renderAll, render, pieceStart,
        List.append_assoc, List.append_nil]
    · exact hfo
    · exact hpo
    · rfl
    · exact hcd.trans (by decide)
    · rfl
    · exact hcur
  | cell =>
    rw [hk] at hpd hcd hout
    have hel' := hel
    rw [hk, tag_cell] at hel'
    refine ⟨{ s with
        out := s.out ++ endTag 3 "CellData".toList, cdOpen := false,
        elements := ["Piece".toList, "UnstructuredGrid".toList, "VTKFile".toList] }, ?_,
      ds, { p with sections := p.sections ++ [sec] }, xs, _, hd, hxs, hks.snoc hsec,
      ?_, ?_, ?_, ?_, ?_, ?_, ?_⟩
    · unfold closeData
      rw [if_neg (by simp [hpd]), if_pos (by simp [hcd]),
        seq_of_ok (closeElement_open hfo hel')]
      simp only [modify, List.length_cons, List.length_nil, Nat.reduceAdd]
    · simp only [hout, hk, tag_cell, renderAll_append, renderAll, render, pieceStart,
        List.append_assoc, List.append_nil]
    · exact hfo
    · exact hpo
    · exact hpd.trans (by decide)
    · rfl
    · rfl
    · exact hcur

theorem closeData_noop {s : St} (h1 : s.pdOpen = false) (h2 : s.cdOpen = false) :
    closeData s = (s, none) := by simp [closeData, h1, h2]

/-- `_close_piece` with a piece open -/
theorem closePiece_inPiece {s : St} {d : Doc} (h : InPiece s d) :
    ∃ s', closePiece s = (s', none) ∧ Flat s' d := by
  obtain ⟨ds, p, xs, ks, hd, hxs, hks, hout, hfo, hpo, hpd, hcd, hel, hcur⟩ := h
  refine ⟨{ s with
      out := s.out ++ endTag 2 "Piece".toList, pieceOpen := false,
      elements := ["UnstructuredGrid".toList, "VTKFile".toList] }, ?_, xs ++ [_], by rw [hd]; exact List.rel_append hxs (.cons hks.xml .nil), ?_, ?_, ?_, ?_, ?_, ?_⟩
  · unfold closePiece
    rw [if_pos hpo, seq_of_ok (closeElement_open hfo hel)]
    simp only [modify, List.length_cons, List.length_nil, Nat.reduceAdd]
  · simp only [hout, renderAll_append, renderAll, render, pieceStart,
        List.append_assoc, List.append_nil]
  · exact hfo
  · rfl
  · exact hpd
  · exact hcd
  · rfl

/-- in every reachable state `_close_data` then `_close_piece` succeed -/
theorem flatten_rel {s : St} {d : Doc} (h : Rel s d) :
    ∃ s1 s2, closeData s = (s1, none) ∧ closePiece s1 = (s2, none) ∧ Flat s2 d := by
  rcases h with ⟨-, hf, -⟩ | ⟨hp, -⟩ | hd
  · have hf' := hf
    obtain ⟨xs, -, -, -, hpo, hpd, hcd, -⟩ := hf'
    exact ⟨s, s, closeData_noop hpd hcd, by simp [closePiece, hpo], hf⟩
  · have hp' := hp
    obtain ⟨-, -, -, -, -, -, -, -, -, -, hpd, hcd, -, -⟩ := hp'
    obtain ⟨s2, h2, hf⟩ := closePiece_inPiece hp
    exact ⟨s, s2, closeData_noop hpd hcd, h2, hf⟩
  · obtain ⟨s1, h1, hp⟩ := closeData_inData hd
    obtain ⟨s2, h2, hf⟩ := closePiece_inPiece hp
    exact ⟨s1, s2, h1, h2, hf⟩

/-- a successful `new_piece` -/
theorem newPiece_ok {s s' : St} {d : Doc} {p c : Arr} {o t : IArr} (h : Rel s d)
    (hr : newPiece p c o t s = (s', none)) :
    ∃ d', DocStep d (.newPiece p c o t) d' ∧ Rel s' d' := by
  obtain ⟨s1, s2, h1, h2, xs, hxs, hout, hfo, hpo, hpd, hcd, hel⟩ := flatten_rel h
  unfold newPiece at hr
  rw [seq_of_ok h1, seq_of_ok h2, seq_of_ok rfl] at hr
  rcases hre : reorderData conTable c.rows 0 o.vals t.vals with ⟨rows, _ | e⟩
  case some => simp only [hre] at hr; cases hr
  simp only [hre] at hr
  rcases htm : typeidmapper t with e | vt
  case error => simp only [htm] at hr; cases hr
  simp only [htm] at hr
  obtain ⟨hne, hd1, hd2, hft⟩ := (typeidmapper_ok t vt).mp htm
  rw [seq_of_ok (openElement_open (by simpa using hfo)), seq_of_ok (openElement_open (by simpa using hfo))] at hr
  dsimp only at hr
  obtain ⟨s3, hw1, hr⟩ := seq_ok.mp hr
  obtain ⟨-, x1, hx1, rfl⟩ := writeArray_ok_iff hw1 hfo
  rw [seq_of_ok (closeElement_open (by simpa using hfo) rfl), seq_of_ok (openElement_open (by simpa using hfo))] at hr
  dsimp only at hr
  obtain ⟨s4, hw2, hr⟩ := seq_ok.mp hr
  obtain ⟨-, x2, hx2, rfl⟩ := writeArray_ok_iff hw2 hfo
  obtain ⟨s5, hw3, hr⟩ := seq_ok.mp hr
  obtain ⟨-, x3, hx3, rfl⟩ := writeArray_ok_iff hw3 hfo
  obtain ⟨s6, hw4, hr⟩ := seq_ok.mp hr
  obtain ⟨-, x4, hx4, rfl⟩ := writeArray_ok_iff hw4 hfo
  rw [closeElement_open (by simpa using hfo) rfl] at hr
  injection hr with hr _
  subst hr
  have hvt : vt = ⟨"int64", 8, vt.vals⟩ := by
    cases vt; simp only at hd1 hd2; rw [hd1, hd2]
  refine ⟨_, .newPiece d p c o t rows vt.vals hre hft, Or.inr (Or.inl ⟨⟨d, _, xs, _, rfl, hxs,
    .mk _ x1 x2 x3 x4 [] hx1 hx2 hx3 (hvt ▸ hx4) .nil, ?_, hfo, rfl, hpd, hcd, ?_, rfl⟩, ?_⟩)⟩
  · simp only [hout, hel, renderAll, render, pieceStart, List.append_assoc,
      List.append_nil, List.length_cons, List.length_nil, Nat.reduceAdd]
  · simp only [hel]
  · intro p' hp'
    simp only [List.getLast?_append, List.getLast?_singleton, Option.some_or,
      Option.some.injEq] at hp'
    rw [← hp']

/-- `op` succeeds and changes the stack from `E` to `E'` -/
def Steps (op : Op) (E E' : List Str) : Prop :=
  ∀ s : St, s.fileOpen = true → s.elements = E →
    ∃ s', op s = (s', none) ∧ s'.fileOpen = true ∧ s'.elements = E'

theorem Steps.seq {f g : Op} {E E' E'' : List Str} (hf : Steps f E E') (hg : Steps g E' E'') :
    Steps (f ;; g) E E'' := by
  intro s h1 h2
  obtain ⟨s1, e1, h3, h4⟩ := hf s h1 h2
  obtain ⟨s2, e2, h5, h6⟩ := hg s1 h3 h4
  exact ⟨s2, by rw [seq_of_ok e1, e2], h5, h6⟩

theorem steps_open (tag : Str) (a : List (Str × Str)) (E : List Str) :
    Steps (openElement tag a) E (tag :: E) := by
  intro s h1 h2
  exact ⟨_, openElement_open h1, h1, by simp [h2]⟩

theorem steps_close (tag : Str) (E : List Str) : Steps (closeElement tag) (tag :: E) E := by
  intro s h1 h2
  exact ⟨_, closeElement_open h1 h2, h1, rfl⟩

theorem steps_array {arr : Arr} (name : Str) (comps : List Str) (hw : Writable arr)
    (E : List Str) : Steps (writeArray arr name comps) E E := by
  intro s h1 h2
  obtain ⟨x, -, e⟩ := writeArray_writable arr name comps s h1 hw
  exact ⟨_, e, h1, h2⟩

/-- `new_piece` succeeds when everything is writable -/
theorem newPiece_complete {s : St} {d : Doc} {p c : Arr} {o t : IArr} {rows : List (List Byte)}
    (h : Rel s d) (hp : Writable p) (hre : reorderData conTable c.rows 0 o.vals t.vals = (rows, none))
    (hc : Writable { c with rows := rows }) (ho : Writable o.toArr) (hne : t.vals ≠ [])
    (vt : List Nat) (ht : List.Forall₂ (fun a b => (a, b) ∈ vtkCellTypes) t.vals vt)
    (hw : Writable (IArr.toArr ⟨"int64", 8, vt⟩)) :
    ∃ s', newPiece p c o t s = (s', none) := by
  obtain ⟨s1, s2, h1, h2, xs, hxs, hout, hfo, hpo, hpd, hcd, hel⟩ := flatten_rel h
  have htm : typeidmapper t = .ok ⟨"int64", 8, vt⟩ :=
    (typeidmapper_ok _ _).mpr ⟨hne, rfl, rfl, ht⟩
  unfold newPiece
  rw [seq_of_ok h1, seq_of_ok h2, seq_of_ok rfl]
  simp only [hre, htm]
  have := (steps_open "Piece".toList
      [("NumberOfPoints".toList, natStr p.rows.length),
       ("NumberOfCells".toList, natStr o.vals.length)] s2.elements).seq
    ((steps_open "Points".toList [] _).seq
    ((steps_array "points".toList [] hp _).seq
    ((steps_close "Points".toList _).seq
    ((steps_open "Cells".toList [] _).seq
    ((steps_array "connectivity".toList [] hc _).seq
    ((steps_array "offsets".toList [] ho _).seq
    ((steps_array "types".toList [] hw _).seq (steps_close "Cells".toList _))))))))
  obtain ⟨s', e, -⟩ := this
    { s2 with pieceOpen := true, cur := some (o.vals, t.vals) } hfo rfl
  exact ⟨s', e⟩

/-- `start_pointdata` in a reachable state: refused without a piece, else succeeds -/
theorem start_rel {s : St} {d : Doc} (k : Kind) (h : Rel s d) :
    let op := match k with | .point => startPointdata | .cell => startCelldata
    let c := match k with | .point => Call.startPointdata | .cell => Call.startCelldata
    (d = [] ∧ op s = (s, some .vtkError)) ∨
    (∃ s' d', op s = (s', none) ∧ DocStep d c d' ∧ Rel s' d') := by
  have key : ∀ s1, InPiece s1 d → closeData s = (s1, none) → s.pieceOpen = true →
      let op := match k with | .point => startPointdata | .cell => startCelldata
      let c := match k with | .point => Call.startPointdata | .cell => Call.startCelldata
      ∃ s' d', op s = (s', none) ∧ DocStep d c d' ∧ Rel s' d' := by
    intro s1 hip hcl hpo1
    obtain ⟨ds, p, xs, ks, hd, hxs, hks, hout, hfo, hpo, hpd, hcd, hel, hcur⟩ := hip
    subst hd
    cases k with
    | point =>
      refine ⟨{ s1 with out := s1.out ++ startTag 3 "PointData".toList [], pdOpen := true,
                        elements := "PointData".toList :: s1.elements }, _, ?_,
        .startPoint ds p, Or.inr (Or.inr ⟨ds, p, xs, ks, ⟨.point, []⟩, [], rfl, hxs,
        hks, .nil, ?_, ?_, ?_, ?_, ?_, ?_, ?_⟩)⟩
      rotate_left
      · simp only [hout, hel, renderAll, List.append_nil, List.length_cons, List.length_nil,
          Nat.reduceAdd, tag_point]
      · exact hfo
      · exact hpo
      · rfl
      · exact hcd
      · simp only [tag_point]; rw [← hel]
      · exact hcur
      · show startPointdata s = _
        unfold startPointdata
        rw [if_pos hpo1, seq_of_ok hcl, seq_of_ok (openElement_open (by simpa using hfo))]
        simp only [modify, hel, List.length_cons, List.length_nil, Nat.reduceAdd]
    | cell =>
      refine ⟨{ s1 with out := s1.out ++ startTag 3 "CellData".toList [], cdOpen := true,
                        elements := "CellData".toList :: s1.elements }, _, ?_,
        .startCell ds p, Or.inr (Or.inr ⟨ds, p, xs, ks, ⟨.cell, []⟩, [], rfl, hxs,
        hks, .nil, ?_, ?_, ?_, ?_, ?_, ?_, ?_⟩)⟩
      rotate_left
      · simp only [hout, hel, renderAll, List.append_nil, List.length_cons, List.length_nil,
          Nat.reduceAdd, tag_cell]
      · exact hfo
      · exact hpo
      · exact hpd
      · rfl
      · simp only [tag_cell]; rw [← hel]
      · exact hcur
      · show startCelldata s = _
        unfold startCelldata
        rw [if_pos hpo1, seq_of_ok hcl, seq_of_ok (openElement_open (by simpa using hfo))]
        simp only [modify, hel, List.length_cons, List.length_nil, Nat.reduceAdd]
  rcases h with ⟨hd, ⟨xs, -, -, -, hpo, -⟩, -⟩ | ⟨hp, -⟩ | hd
  · left
    refine ⟨hd, ?_⟩
    cases k <;> simp [startPointdata, startCelldata, hpo]
  · right
    have hp' := hp
    obtain ⟨-, -, -, -, -, -, -, -, -, hpo, hpd, hcd, -, -⟩ := hp'
    exact key s hp (closeData_noop hpd hcd) hpo
  · right
    have hd' := hd
    obtain ⟨s1, h1, hp⟩ := closeData_inData hd
    obtain ⟨-, -, -, -, -, -, -, -, -, -, -, -, hpo, -⟩ := hd'
    exact key s1 hp h1 hpo

theorem start_point {s : St} {d : Doc} (h : Rel s d) :
    (d = [] ∧ startPointdata s = (s, some .vtkError)) ∨
    (∃ s' d', startPointdata s = (s', none) ∧ DocStep d .startPointdata d' ∧ Rel s' d') :=
  start_rel .point h

theorem start_cell {s : St} {d : Doc} (h : Rel s d) :
    (d = [] ∧ startCelldata s = (s, some .vtkError)) ∨
    (∃ s' d', startCelldata s = (s', none) ∧ DocStep d .startCelldata d' ∧ Rel s' d') :=
  start_rel .cell h

theorem addData_closed {s : St} (a : Arr) (n : Str) (cs : List Str) (h1 : s.pdOpen = false)
    (h2 : s.cdOpen = false) : addData a n cs s = (s, some .vtkError) := by
  simp [addData, h1, h2]

theorem addData_inData {s : St} {d : Doc} (a : Arr) (n : Str) (cs : List Str) (h : InData s d) :
    addData a n cs s = writeArray a n cs s := by
  obtain ⟨ds, p, xs, ks, sec, ys, -, -, -, -, -, -, -, hpd, hcd, -, -⟩ := h
  unfold addData
  rw [if_neg]
  cases hk : sec.kind <;> simp [hpd, hcd, hk]

theorem InData.add {s : St} {d : Doc} {a : Arr} {n : Str} {cs : List Str} {x : Xml} {s' : St}
    (h : InData s d) (hx : DataXml ⟨a, n, cs⟩ x)
    (hs' : s' = { s with out := s.out ++ render s.elements.length x }) :
    ∃ ds p ss sec, d = ds ++ [p] ∧ p.sections = ss ++ [sec] ∧
      s.cur = some (p.offsets.vals, p.types.vals) ∧
      InData s' (ds ++ [{ p with sections := ss ++ [⟨sec.kind, sec.arrays ++ [⟨a, n, cs⟩]⟩] }]) := by
  obtain ⟨ds, p, xs, ks, sec, ys, hd, hxs, hks, hys, hout, hfo, hpo, hpd, hcd, hel, hcur⟩ := h
  refine ⟨ds, _, p.sections, sec, hd, rfl, hcur, ds, p, xs, ks,
    ⟨sec.kind, sec.arrays ++ [⟨a, n, cs⟩]⟩, ys ++ [x], rfl, hxs, hks,
    List.rel_append hys (.cons hx .nil), ?_, ?_, ?_, ?_, ?_, ?_, ?_⟩
  all_goals subst hs'
  · simp only [hout, hel, renderAll_append, renderAll, List.append_nil, List.append_assoc,
      List.length_cons, List.length_nil, Nat.reduceAdd]
  all_goals assumption

theorem InData.fileOpen {s : St} {d : Doc} (h : InData s d) : s.fileOpen = true := by
  obtain ⟨-, -, -, -, -, -, -, -, -, -, -, hfo, -⟩ := h
  exact hfo

/-- `close` in a reachable state -/
theorem close_rel {s : St} {d : Doc} (h : Rel s d) :
    ∃ s' x, close s = (s', none) ∧ DocXml d x ∧ s'.out = render 0 x ∧ s'.fileOpen = false ∧
      s'.pieceOpen = false ∧ s'.pdOpen = false ∧ s'.cdOpen = false ∧ s'.elements = [] := by
  obtain ⟨s1, s2, h1, h2, xs, hxs, hout, hfo, hpo, hpd, hcd, hel⟩ := flatten_rel h
  refine ⟨{ s2 with
      out := s2.out ++ endTag 1 "UnstructuredGrid".toList ++ endTag 0 "VTKFile".toList,
      elements := [], fileOpen := false }, _, ?_, .mk d xs hxs, ?_, rfl, hpo, hpd, hcd, rfl⟩
  · unfold close
    rw [seq_of_ok h1, seq_of_ok h2, seq_of_ok (closeElement_open hfo hel),
      seq_of_ok (closeElement_open (by simpa using hfo) rfl)]
    simp only [modify, List.length_cons, List.length_nil, Nat.reduceAdd]
  · simp only [hout, headText, renderAll, render, List.append_nil, List.append_assoc]

/-! ## a closed file -/

/-- on a closed file `op` writes nothing -/
def Silent (op : Op) : Prop :=
  ∀ s : St, s.fileOpen = false → (op s).1.out = s.out ∧ (op s).1.fileOpen = false

/-- on a closed file `op` writes nothing and raises -/
def Dead (op : Op) : Prop :=
  ∀ s : St, s.fileOpen = false → ∃ s' e, op s = (s', some e) ∧ s'.out = s.out ∧ s'.fileOpen = false

theorem Dead.silent {op : Op} (h : Dead op) : Silent op := by
  intro s hs
  obtain ⟨s', e, h1, h2, h3⟩ := h s hs
  rw [h1]; exact ⟨h2, h3⟩

theorem Dead.seq {f g : Op} (hf : Dead f) : Dead (f ;; g) := by
  intro s hs
  obtain ⟨s', e, h1, h2, h3⟩ := hf s hs
  exact ⟨s', e, seq_of_err h1, h2, h3⟩

theorem Silent.seq_dead {f g : Op} (hf : Silent f) (hg : Dead g) : Dead (f ;; g) := by
  intro s hs
  obtain ⟨h1, h2⟩ := hf s hs
  rcases hr : f s with ⟨s1, _ | e⟩
  · rw [hr] at h1 h2
    obtain ⟨s', e, h3, h4, h5⟩ := hg s1 h2
    exact ⟨s', e, by rw [seq_of_ok hr, h3], h4.trans h1, h5⟩
  · rw [hr] at h1 h2
    exact ⟨s1, e, seq_of_err hr, h1, h2⟩

theorem dead_open (tag : Str) (a : List (Str × Str)) : Dead (openElement tag a) := by
  intro s hs
  exact ⟨{ s with elements := tag :: s.elements }, .valueError,
    by simp [openElement, emit, hs], rfl, hs⟩

theorem dead_close (tag : Str) : Dead (closeElement tag) := by
  intro s hs
  unfold closeElement
  rcases s.elements with _ | ⟨t, ts⟩
  · exact ⟨s, _, rfl, rfl, hs⟩
  · simp only
    split
    · exact ⟨{ s with elements := ts }, .valueError, by simp [emit, hs], rfl, hs⟩
    · exact ⟨_, .vtkError, rfl, rfl, hs⟩

theorem silent_modify (f : St → St) (h1 : ∀ s, (f s).out = s.out)
    (h2 : ∀ s, (f s).fileOpen = s.fileOpen) : Silent (modify f) :=
  fun s hs => ⟨h1 s, (h2 s).trans hs⟩

theorem silent_closeData : Silent closeData := by
  intro s hs
  unfold closeData
  split
  · exact (dead_close _).seq.silent s hs
  · split
    · exact (dead_close _).seq.silent s hs
    · exact ⟨rfl, hs⟩

theorem silent_closePiece : Silent closePiece := by
  intro s hs
  unfold closePiece
  split
  · exact (dead_close _).seq.silent s hs
  · exact ⟨rfl, hs⟩

theorem dead_writeArray (a : Arr) (n : Str) (cs : List Str) : Dead (writeArray a n cs) := by
  intro s hs
  unfold writeArray
  rcases a.tail with _ | ⟨x, _ | ⟨y, l⟩⟩
  case cons.cons => exact ⟨s, _, rfl, rfl, hs⟩
  all_goals
    rcases vtkDatatype a.dtype with _ | vt
    · exact ⟨s, _, rfl, rfl, hs⟩
    · exact (dead_open _ _).seq s hs

theorem dead_addData (a : Arr) (n : Str) (cs : List Str) : Dead (addData a n cs) := by
  intro s hs
  unfold addData
  split
  · exact ⟨s, _, rfl, rfl, hs⟩
  · exact dead_writeArray a n cs s hs

theorem dead_newPiece (p c : Arr) (o t : IArr) : Dead (newPiece p c o t) := by
  unfold newPiece
  refine silent_closeData.seq_dead (silent_closePiece.seq_dead
    ((silent_modify _ (by intro; rfl) (by intro; rfl)).seq_dead ?_))
  intro s hs
  simp only
  rcases reorderData conTable c.rows 0 o.vals t.vals with ⟨rows, _ | e⟩
  · simp only
    rcases typeidmapper t with e | vt
    · exact ⟨_, e, rfl, rfl, hs⟩
    · simp only
      obtain ⟨s', e, h1, h2, h3⟩ := (dead_open "Piece".toList
        [("NumberOfPoints".toList, natStr p.rows.length),
         ("NumberOfCells".toList, natStr o.vals.length)])
        { s with cur := some (o.vals, t.vals) } hs
      exact ⟨s', e, seq_of_err h1, h2, h3⟩
  · exact ⟨s, e, rfl, rfl, hs⟩

theorem dead_call (c : Call) : Dead c.run := by
  cases c with
  | newPiece p c o t => exact dead_newPiece p c o t
  | startPointdata =>
    intro s hs
    show ∃ s' e, startPointdata s = _ ∧ _
    unfold startPointdata
    split
    · exact silent_closeData.seq_dead (dead_open _ _).seq s hs
    · exact ⟨s, _, rfl, rfl, hs⟩
  | startCelldata =>
    intro s hs
    show ∃ s' e, startCelldata s = _ ∧ _
    unfold startCelldata
    split
    · exact silent_closeData.seq_dead (dead_open _ _).seq s hs
    · exact ⟨s, _, rfl, rfl, hs⟩
  | addData a n cs => exact dead_addData a n cs
  | addDataCellpoints a n cs =>
    intro s hs
    show ∃ s' e, addDataCellpoints a n cs s = _ ∧ _
    unfold addDataCellpoints
    rcases s.cur with _ | ⟨o, t⟩
    · exact ⟨s, _, rfl, rfl, hs⟩
    · simp only
      rcases reorderData resTable a.rows 0 o t with ⟨rows, _ | e⟩
      · exact dead_addData _ n cs s hs
      · exact ⟨s, e, rfl, rfl, hs⟩
  | close =>
    exact silent_closeData.seq_dead (silent_closePiece.seq_dead (dead_close _).seq)

end Verif.Vtu
