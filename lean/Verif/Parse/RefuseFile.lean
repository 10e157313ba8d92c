import Verif.Parse.RefuseRun
import Verif.Parse.FileTheorem
/-!
# Files that cannot be converted: the loop of the parser
-/

namespace Verif.Parse
open Verif Verif.Seq

section
variable {only : Option (List String)} {sk : LRec → Bool} {e0 : Int → Option Int}

/-- a record that is wrong, or whose row cannot be stored -/
def Bad (e0 : Int → Option Int) (past : List LRec) (next : Option LRec) (first : Bool) (r : LRec)
    (e : Err) : Prop :=
  Wrong e0 past first r e ∨ (first = true → FirstOK r ∧ r.name ≠ "HIERARCH") ∧ Misfit e0 past next r e

theorem RowRefused.error_ne {cols : List Col} {row : List Val} {e : Err}
    (h : RowRefused cols row e) : e ≠ .outOfFuel := by
  cases h with
  | count => decide
  | field h =>
    induction h with
    | here h =>
      have hv : ∀ {k sh v e}, Unstorable k sh v e → e ≠ .outOfFuel := by
        intro k sh v e h
        cases h <;> decide
      exact hv h
    | later _ _ ih => exact ih

theorem bad_names {past : List LRec} {next : Option LRec} {b : Bool} {r : LRec} {e : Err}
    (h : Bad e0 past next b r e) : HasTable r.name ∧ r.name ≠ "IDENT" ∧
      (b = true → r.name ≠ "HIERARCH") ∧ (b = true → FirstOK r) ∧ e ≠ .outOfFuel := by
  rcases h with h | ⟨hf, h1, en, l, hm, hl, hn, hr⟩
  · obtain ⟨k1, k2, k3, k4, k5⟩ := wrong_names h
    exact ⟨k1, k2, k3, fun _ h => absurd h k4, k5⟩
  · exact ⟨⟨l, hl, hn⟩, h1, fun h => (hf h).2, fun h => (hf h).1, hr.error_ne⟩

theorem BadRow.name {r : LRec} {e : Err} (h : BadRow r e) : r.name = "HIERARCH" := by
  cases h <;> rfl

theorem BadRow.error_ne {r : LRec} {e : Err} (h : BadRow r e) :
    e ≠ .outOfFuel ∧ e ≠ .structError := by
  cases h with
  | count h => cases h <;> decide
  | row _ _ _ h =>
    refine ⟨h.error_ne, ?_⟩
    generalize Layout.cols _ = cols, numbers _ = row at h
    cases h with
    | count => decide
    | field h =>
      induction h with
      | here h =>
        have hv : ∀ {k sh v e}, Unstorable k sh v e → e ≠ .structError := by
          intro k sh v e h
          cases h <;> decide
        exact hv h
      | later _ _ ih => exact ih

/-- a block with a wrong record behind its first one, or the end of the file behind it -/
inductive BadBlock (e0 : Int → Option Int) (nm : String) :
    List LRec → List LRec → List Added → Err → Stop → Prop
  | bad {past r rest e} : r.name = nm → Bad e0 past rest.head? false r e →
      BadBlock e0 nm past (r :: rest) [] e ⟨r, past, true, true⟩
  | ends {past} : BadBlock e0 nm past [] [] .structError ⟨endMark, past, true, false⟩
  | step {past r rest o outs e c} : r.name = nm → Adds e0 past rest.head? false r o →
      BadBlock e0 nm (r :: past) rest outs e c → BadBlock e0 nm past (r :: rest) (o :: outs) e c

/-- what the block in progress leads to -/
theorem Refuses.block {nm : String} {past f : List LRec} {outs : List Added} {e : Err} {c : Stop}
    (h : Refuses only sk e0 (some nm) past f outs e c) (ht : HasTable nm) (hi : nm ≠ "IDENT") :
    BadBlock e0 nm past f outs e c ∨
    ∃ new outs' past' f', outs = new ++ outs' ∧ Block e0 nm past f new past' f' ∧
      (∀ o ∈ new, o.first = false) ∧ f'.length ≤ f.length ∧
      Refuses only sk e0 none past' f' outs' e c := by
  generalize hc : some nm = cur at h
  have pass_name : ∀ {r cur'}, Passed only sk (some nm) r cur' → r.name ≠ nm := by
    rintro r cur' h1 rfl
    generalize hc : some r.name = cur at h1
    cases h1 with
    | void h => exact h hc.symm
    | unselected h => exact h hc.symm
    | unread h => exact h hc.symm
    | unreadMore _ _ _ h => exact h ht
    | recsize _ h => exact (hasTable_ne ht).2.2 h.1
    | notEnd _ h => exact (hasTable_ne ht).2.1 h.1
  have key : ∀ {cur past f outs e c}, Refuses only sk e0 cur past f outs e c →
      cur = some nm → BadBlock e0 nm past f outs e c ∨
      ∃ new outs' past' f', outs = new ++ outs' ∧ Block e0 nm past f new past' f' ∧
      (∀ o ∈ new, o.first = false) ∧ f'.length ≤ f.length ∧
      Refuses only sk e0 none past' f' outs' e c := by
    intro cur past f outs e c h
    induction h with
    | @wrongMore past r rest e h1 =>
      intro he
      exact .inl (.bad (by simpa using he) (.inl h1))
    | @misfitMore past r rest e h1 =>
      intro he
      exact .inl (.bad (by simpa using he) (.inr ⟨by simp, h1⟩))
    | @misfitFirst cur past r rest e h1 h2 h3 h4 h5 h6 =>
      rintro rfl
      exact .inr ⟨[], _, past, _, rfl, .done (by rintro rfl; exact h1 rfl), by simp,
        Nat.le_refl _, .misfitFirst (by simp) h2 h3 h4 h5 h6⟩
    | ends h =>
      rintro he
      cases he
      exact .inl .ends
    | @identEnds cur past r o h0 h1 h2 h3 h4 =>
      rintro rfl
      exact .inr ⟨[], _, past, _, rfl, .done (by rw [h1]; exact hi.symm), by simp,
        Nat.le_refl _, .identEnds (by simp) h1 h2 h3 h4⟩
    | @wrongFirst cur past r rest e h1 h2 h3 h4 =>
      rintro rfl
      exact .inr ⟨[], _, past, _, rfl, .done (by rintro rfl; exact h1 rfl), by simp,
        Nat.le_refl _, .wrongFirst (by simp) h2 h3 h4⟩
    | @hier cur past r rest e h1 h2 h3 h4 =>
      rintro rfl
      exact .inr ⟨[], _, past, _, rfl, .done (by rintro rfl; exact h1 rfl), by simp,
        Nat.le_refl _, .hier (by simp) h2 h3 h4⟩
    | @mesh cur past r rest x n h1 h2 h3 h4 h5 h6 h7 =>
      rintro rfl
      exact .inr ⟨[], _, past, _, rfl, .done (by rintro rfl; exact h1 rfl), by simp,
        Nat.le_refl _, .mesh (by simp) h2 h3 h4 h5 h6 h7⟩
    | @stuck cur past r rest e h1 h2 h3 =>
      rintro rfl
      exact .inr ⟨[], _, past, _, rfl, .done (by rintro rfl; exact h1 rfl), by simp,
        Nat.le_refl _, .stuck (by simp) h2 h3⟩
    | @more past r rest o outs e c h1 h2 h3 ih =>
      intro he
      have hn : r.name = nm := by simpa using he
      rcases ih he with ih | ⟨new, outs', past', f', e1, e2, e3, e4, e5⟩
      · exact .inl (.step hn h2 ih)
      · refine .inr ⟨o :: new, outs', past', f', by rw [e1]; rfl, .step hn h2 e2, ?_, ?_, e5⟩
        · intro o' ho'
          simp only [List.mem_cons] at ho'
          rcases ho' with rfl | ho'
          · exact adds_first h2
          · exact e3 _ ho'
        · simp; omega
    | @first cur past r rest o outs e c h1 h2 h3 h4 h5 h6 h7 _ =>
      rintro rfl
      exact .inr ⟨[], _, past, _, rfl, .done (by rintro rfl; exact h1 rfl), by simp,
        Nat.le_refl _, .first (by simp) h2 h3 h4 h5 h6 h7⟩
    | @ident cur past r rest o outs e c h0 h1 h2 h3 h4 h5 _ =>
      rintro rfl
      exact .inr ⟨[], _, past, _, rfl, .done (by rw [h1]; exact hi.symm), by simp,
        Nat.le_refl _, .ident (by simp) h1 h2 h3 h4 h5⟩
    | @passEnds cur cur' past r h1 h2 =>
      rintro rfl
      have hn := pass_name h1
      exact .inr ⟨[], _, past, _, rfl, .done hn, by simp, Nat.le_refl _,
        .passEnds (h1.other hn) (h2.imp id fun h => ⟨by simp, h.2⟩)⟩
    | @pass cur cur' past r rest outs e c h1 h2 _ =>
      rintro rfl
      have hn := pass_name h1
      exact .inr ⟨[], _, past, _, rfl, .done hn, by simp, Nat.le_refl _, .pass (h1.other hn) h2⟩
  exact key h hc.symm

/-- a file with a wrong record, at a record that is not passed over -/
inductive RefusesHead (only : Option (List String)) (sk : LRec → Bool) (e0 : Int → Option Int) :
    List LRec → List LRec → List Added → Err → Stop → Prop
  | wrong {past r rest e} : Selected only r.name → NotVoid r →
      Bad e0 past rest.head? true r e → RefusesHead only sk e0 past (r :: rest) [] e ⟨r, past, false, true⟩
  | hier {past r rest e} : Selected only r.name → NotVoid r → BadRow r e →
      RefusesHead only sk e0 past (r :: rest) [] e ⟨r, past, false, true⟩
  | mesh {past r rest x n} : r.name = "SCONMESH" → Selected only r.name → NotVoid r →
      r.head[2]? = some x → HasInt x n → 1 < n →
      RefusesHead only sk e0 past (r :: rest) [] .notImplemented ⟨r, past, false, false⟩
  | stuck {past r rest e} : Selected only r.name → Stuck r e →
      RefusesHead only sk e0 past (r :: rest) [] e ⟨r, past, false, false⟩
  | first {past r rest o outs e c} : r.name ≠ "IDENT" → Selected only r.name → NotVoid r →
      FirstOK r → Adds e0 past rest.head? true r o →
      Refuses only sk e0 (some r.name) (r :: past) rest outs e c →
      RefusesHead only sk e0 past (r :: rest) (o :: outs) e c
  | ident {past r rest o outs e c} : r.name = "IDENT" → Selected only r.name →
      NotVoid r → Adds e0 past rest.head? true r o →
      Refuses only sk e0 none (r :: past) rest outs e c →
      RefusesHead only sk e0 past (r :: rest) (o :: outs) e c
  | identEnds {past r o} : r.name = "IDENT" → Selected only r.name →
      NotVoid r → Adds e0 past none true r o →
      RefusesHead only sk e0 past [r] [o] .structError ⟨endMark, r :: past, false, false⟩

theorem Passed.after {cur cur' : Option String} {r : LRec} (h : Passed only sk cur r cur') :
    ∀ nm, cur' = some nm → ¬ HasTable nm := by
  intro nm hc
  cases h with
  | unread _ _ _ _ h => simp only [Option.some.injEq] at hc; exact hc ▸ h
  | unreadMore _ _ _ h => simp only [Option.some.injEq] at hc; exact hc ▸ h
  | _ => cases hc

theorem Refuses.split {cur : Option String} {past f : List LRec} {outs : List Added} {e : Err} {c : Stop}
    (h : Refuses only sk e0 cur past f outs e c) (hc : ∀ nm, cur = some nm → ¬ HasTable nm) :
    (∃ f', PassesTo only sk cur f f' ∧ RefusesHead only sk e0 past f' outs e c) ∨
    PassesOut only sk cur f ∧ outs = [] ∧ e = .structError ∧ c = ⟨endMark, past, false, false⟩ := by
  induction h with
  | wrongMore h => exact absurd (wrong_names h).1 (hc _ rfl)
  | wrongFirst h1 h2 h3 h4 => exact .inl ⟨_, .done h1 h2, .wrong h2 h3 (.inl h4)⟩
  | misfitMore h => exact absurd (bad_names (b := false) (.inr ⟨by simp, h⟩)).1 (hc _ rfl)
  | misfitFirst h1 h2 h3 h4 h5 h6 =>
    exact .inl ⟨_, .done h1 h2, .wrong h2 h3 (.inr ⟨fun _ => ⟨h4, h5⟩, h6⟩)⟩
  | hier h1 h2 h3 h4 => exact .inl ⟨_, .done h1 h2, .hier h2 h3 h4⟩
  | mesh h1 h2 h3 h4 h5 h6 h7 => exact .inl ⟨_, .done h1 h3, .mesh h2 h3 h4 h5 h6 h7⟩
  | stuck h1 h2 h3 => exact .inl ⟨_, .done h1 h2, .stuck h2 h3⟩
  | more _ h => exact absurd (adds_table h) (hc _ rfl)
  | first h1 h2 h3 h4 h5 h6 h7 => exact .inl ⟨_, .done h1 h3, .first h2 h3 h4 h5 h6 h7⟩
  | ident h0 h1 h2 h3 h4 h5 => exact .inl ⟨_, .done h0 h2, .ident h1 h2 h3 h4 h5⟩
  | ends h => exact absurd h (hc _ rfl)
  | identEnds h0 h1 h2 h3 h4 => exact .inl ⟨_, .done h0 h2, .identEnds h1 h2 h3 h4⟩
  | pass h1 _ ih =>
    rcases ih h1.after with ⟨f', e1, e2⟩ | ⟨e1, e2⟩
    · exact .inl ⟨f', .step h1 e1, e2⟩
    · exact .inr ⟨.step h1 e1, e2⟩
  | passEnds h1 h2 => exact .inr ⟨.last h1 h2, rfl, rfl, rfl⟩

/-- files that end too early do not stop at the first row of a hierarchy -/
theorem Refuses.fits {cur : Option String} {past f : List LRec} {outs : List Added} {c : Stop}
    (h : Refuses only sk e0 cur past f outs .structError c) (s : Int) : c.Fits s := by
  generalize he : Err.structError = e at h
  induction h with
  | wrongMore => exact fun _ _ h => by cases h
  | misfitMore => exact fun _ _ h => by cases h
  | wrongFirst _ _ _ h => exact fun hn => absurd hn ((wrong_names h).2.2.1 rfl)
  | misfitFirst _ _ _ _ h => exact fun hn => absurd hn h
  | hier _ _ _ h => exact absurd he.symm h.error_ne.2
  | mesh => exact fun _ h => by cases h
  | stuck => exact fun _ h => by cases h
  | more _ _ _ ih => exact ih he
  | first _ _ _ _ _ _ _ ih => exact ih he
  | ident _ _ _ _ _ _ ih => exact ih he
  | pass _ _ ih => exact ih he
  | ends => exact fun h => absurd (show "" = "HIERARCH" from h) (by decide)
  | identEnds => exact fun h => absurd (show "" = "HIERARCH" from h) (by decide)
  | passEnds => exact fun h => absurd (show "" = "HIERARCH" from h) (by decide)

/-! ### element types -/

theorem typeOf_other {r : LRec} {k : Int} (hd : ∀ a, ¬ DeclType k r a) {past : List LRec} {t : Int} :
    TypeOf e0 (r :: past) k t ↔ TypeOf e0 past k t := by
  constructor
  · rintro (h' | ⟨h1, h2⟩)
    · cases h' with
      | here h' => exact absurd h' (hd _)
      | earlier _ h' => exact .inl h'
    · exact .inr ⟨fun r' hr' => h1 r' (by simp [hr']), h2⟩
  · rintro (h' | ⟨h1, h2⟩)
    · exact .inl (.earlier hd h')
    · refine .inr ⟨fun r' hr' a => ?_, h2⟩
      rcases List.mem_cons.mp hr' with rfl | hr'
      · exact hd a
      · exact h1 r' hr' a

theorem typeOf_skip {r : LRec} (h : r.name ≠ "GELMNT1") {past : List LRec} {k t : Int} :
    TypeOf e0 (r :: past) k t ↔ TypeOf e0 past k t :=
  typeOf_other fun _ ha => h ha.1

theorem typeOf_decl {r : LRec} {n a : Int} (h : DeclType n r a) {past : List LRec} {k t : Int} :
    TypeOf e0 (r :: past) k t ↔ if k = n then a = t else TypeOf e0 past k t := by
  have huniq : ∀ {k t}, DeclType k r t → k = n ∧ t = a := by
    rintro k t ⟨_, x, y, z, u, h1, h2, h3⟩
    obtain ⟨_, x', y', z', u', h1', h2', h3'⟩ := h
    rw [h1'] at h1
    simp only [List.cons.injEq, and_true] at h1
    obtain ⟨_, rfl, rfl, _⟩ := h1
    exact ⟨h2.unique h2', h3.unique h3'⟩
  by_cases hk : k = n
  · subst hk
    rw [if_pos rfl]
    constructor
    · rintro (h' | ⟨h1, _⟩)
      · cases h' with
        | here h' => exact (huniq h').2.symm
        | earlier h1 _ => exact absurd h (h1 _)
      · exact absurd h (h1 r (by simp) _)
    · rintro rfl
      exact .inl (.here h)
  · rw [if_neg hk]
    have hd : ∀ a, ¬ DeclType k r a := fun a ha => hk (huniq ha).1
    constructor
    · rintro (h' | ⟨h1, h2⟩)
      · cases h' with
        | here h' => exact absurd h' (hd _)
        | earlier _ h' => exact .inl h'
      · exact .inr ⟨fun r' hr' => h1 r' (by simp [hr']), h2⟩
    · rintro (h' | ⟨h1, h2⟩)
      · exact .inl (.earlier hd h')
      · refine .inr ⟨fun r' hr' a => ?_, h2⟩
        rcases List.mem_cons.mp hr' with rfl | hr'
        · exact hd a
        · exact h1 r' hr' a

theorem MoreInt.ne {name : String} {k i : Nat} (h : MoreInt name k i) {n : String}
    (hn : n = "GELMNT1") : name ≠ n := by
  subst hn
  cases h with
  | node h => rintro rfl; exact absurd h (by decide)
  | element h => rintro rfl; exact absurd h (by decide)
  | _ => decide

theorem MoreInt2.ne {name : String} {k i j : Nat} (h : MoreInt2 name k i j) {n : String}
    (hn : n = "GELMNT1") : name ≠ n := by
  subst hn
  cases h with
  | node h => rintro rfl; exact absurd h (by decide)
  | element h => rintro rfl; exact absurd h (by decide)
  | _ => decide

/-- an element without an integer as number or type -/
theorem bodyLeft_notInt {past : List LRec} {r : LRec} {e : Err} {j : Nat}
    (hr : r.name = "GELMNT1") (hn : NoInt r.head j e) (hj : j = 1 ∨ j = 2) {env : Env}
    (he : EnvInv e0 past env) (k t : Int) :
    bodyLeft r.name r.head env.elem k = some t ↔ TypeOf e0 (r :: past) k t := by
  have hno : ∀ x n, r.head[j]? = some x → ¬ x.toInt = .ok n := by
    intro x n hx h
    cases hn with
    | missing h' => rw [List.getElem?_eq_none h'] at hx; cases hx
    | nan h' => rw [h'] at hx; cases hx; cases h
    | inf b h' => rw [h'] at hx; cases hx; cases h
  have hd : ∀ k a, ¬ DeclType k r a := by
    rintro k a ⟨_, x, y, z, u, h1, h2, h3⟩
    rcases hj with rfl | rfl
    · exact hno y k (by rw [h1]; rfl) (hasInt_toInt h2)
    · exact hno z a (by rw [h1]; rfl) (hasInt_toInt h3)
  rw [typeOf_other (fun a => hd k a), ← he.elem_iff]
  have : bodyLeft r.name r.head env.elem = env.elem := by
    unfold bodyLeft
    rw [if_pos hr]
    split
    · rename_i hl
      split
      · rename_i h1 h2
        exfalso
        rcases hj with rfl | rfl
        · exact hno _ _ (by rw [hl]; rfl) h2
        · exact hno _ _ (by rw [hl]; rfl) h1
      · rfl
    · rfl
  rw [this]

/-- the element types after a wrong record: an element of an unsupported type is kept -/
theorem bodyLeft_wrong {past : List LRec} {first : Bool} {r : LRec} {e : Err}
    (h : Wrong e0 past first r e) {env : Env} (he : EnvInv e0 past env) (k t : Int) :
    bodyLeft r.name r.head env.elem k = some t ↔ TypeOf e0 (r :: past) k t := by
  have other : r.name ≠ "GELMNT1" →
      (bodyLeft r.name r.head env.elem k = some t ↔ TypeOf e0 (r :: past) k t) := by
    intro hn
    rw [typeOf_skip hn, ← he.elem_iff]
    unfold bodyLeft
    rw [if_neg hn]
  cases h with
  | @elementType _ a b c d elno ty pre sk vals pad h1 h2 h3 =>
    rw [typeOf_decl (n := elno) (a := ty) ⟨rfl, a, b, c, d, rfl, h1, h2⟩, ← he.elem_iff]
    unfold bodyLeft
    rw [if_pos rfl]
    simp only [hasInt_toInt h1, hasInt_toInt h2]
    by_cases hk : k = elno
    · subst hk; simp [upd]
    · simp [upd, hk]
  | noCase h =>
    refine other ?_
    rintro rfl
    exact absurd h (by decide)
  | badCase h =>
    refine other ?_
    rintro rfl
    exact absurd h (by decide)
  | noDeclaration h =>
    refine other ?_
    rintro rfl
    exact absurd h (by decide)
  | @notInt _ name head pre sk vals pad i e h1 h2 =>
    by_cases hn : name = "GELMNT1"
    · refine bodyLeft_notInt hn h2 ?_ he k t
      subst hn
      generalize hm : "GELMNT1" = nm at h1
      cases h1 <;> first
        | exact .inr rfl
        | exact absurd hm (by decide)
        | (rename_i h; subst hm; exact absurd h (by decide))
    · exact other hn
  | @notInt2 _ name head pre sk vals pad i j e x n h1 h2 h3 h4 =>
    by_cases hn : name = "GELMNT1"
    · refine bodyLeft_notInt hn h4 ?_ he k t
      subst hn
      generalize hm : "GELMNT1" = nm at h1
      cases h1 <;> first
        | exact .inl rfl
        | exact absurd hm (by decide)
        | (rename_i h; subst hm; exact absurd h (by decide))
    · exact other hn
  | notIntMore h1 => exact other (h1.ne rfl)
  | notIntMore2 h1 => exact other (h1.ne rfl)
  | _ => exact other (by simp)

/-! ### the buffer -/

/-- the table in the output file while the records `blk` of a block are added -/
def Buffered (B : Nat) (l : Layout) (w : Work) (done blk : List Added) : Prop :=
  w.recs.length = blk.length % B ∧
  w.tab = (contents l (done ++ blk.take (blk.length - blk.length % B))).table l

theorem Buffered.open (B : Nat) (l : Layout) (done : List Added) :
    Buffered B l (Work.open ((contents l done).table l)) done [] := by
  refine ⟨?_, ?_⟩
  · simp [Work.open]
  · simp [Work.open]

theorem Buffered.add {B : Nat} {l : Layout} {w : Work} {done blk : List Added}
    (h : Buffered B l w done blk) {t : Acc} (hw : WInv l w t) {e : Entry} {o : Added}
    (hr : StoredRow l.cols e.row o.cells) (hi : StoredItems l.arrs e.items o.items)
    (ht : t.add false o.cells o.items = contents l (done ++ (blk ++ [o]))) :
    ∃ w', w.add B (emitOf e) = .ok w' ∧ WInv l w' (contents l (done ++ (blk ++ [o]))) ∧
      Buffered B l w' done (blk ++ [o]) := by
  obtain ⟨w', h1, h2, h3⟩ := hw.add' B hr hi
  rw [ht] at h2 h3
  refine ⟨w', h1, h2, ?_⟩
  obtain ⟨hb1, hb2⟩ := h
  rw [hb1] at h3
  unfold Buffered
  simp only [List.length_append, List.length_cons, List.length_nil, Nat.zero_add]
  rcases h3 with ⟨k1, k2, k3⟩ | ⟨k1, k2, k3⟩
  · have hm : (blk.length + 1) % B = 0 := by
      have := Nat.mod_add_div blk.length B
      have h4 : blk.length + 1 = B + B * (blk.length / B) := by omega
      rw [h4, Nat.add_mul_mod_self_left, Nat.mod_self]
    rw [hm, k2, k3]
    refine ⟨rfl, ?_⟩
    rw [List.take_of_length_le (by simp)]
  · have hm : (blk.length + 1) % B = blk.length % B + 1 := by
      rcases Nat.eq_zero_or_pos B with rfl | hB
      · simp
      · have hlt := Nat.mod_lt blk.length hB
        rw [Nat.add_mod, Nat.mod_eq_of_lt (a := 1) (b := B) (by omega)]
        exact Nat.mod_eq_of_lt (by omega)
    rw [hm, k2, k3, hb2]
    refine ⟨rfl, ?_⟩
    rw [Nat.add_sub_add_right, List.take_append_of_le_length (Nat.sub_le _ _)]

/-! ### the loop of a reader -/

/-- the loop of a reader on a wrong record -/
theorem loop_wrong {past : List LRec} {first : Bool} {r : LRec} {e : Err}
    (h : Wrong e0 past first r e) {body : Body} (hb : BodyFor r.name body) (B fuel : Nat) (w : Work)
    {env : Env} (he : EnvInv e0 past env) (hg : first = true → env.grid = none) (rest : List LRec) :
    Prog.run (L.reader sk) (loop B body r.name (fuel + 1) w env (r.name, r.head)) ⟨r, 0, rest⟩ =
      .error e ∧
    loopLeft (L.reader sk) B body r.name (fuel + 1) w env (r.name, r.head) ⟨r, 0, rest⟩ =
      (w.tab, bodyLeft r.name r.head env.elem) := by
  obtain ⟨body', hb', hrun⟩ := wrong_run h
  have := hb'.unique hb
  subst this
  have hr := hrun env he hg sk 0 rest
  constructor
  · simp only [loop]
    rw [if_pos trivial]
    exact Prog.run_bind_error hr
  · simp only [loopLeft]
    rw [if_pos trivial, hr]

theorem WInv.refused {l : Layout} {w : Work} {t : Acc} (h : WInv l w t) (B : Nat) {en : Entry}
    {e : Err} (hr : RowRefused l.cols en.row e) :
    w.add B (emitOf en) = .error e ∧ w.addLeft (emitOf en) = w.tab := by
  have hb : ∀ vs : List Vl, (bounds vs).length = 2 * vs.length := by
    intro vs
    induction vs with
    | nil => rfl
    | cons v vs ih => simp [bounds, ih]; omega
  have hl : ∀ as : List Arr, (limitCols as).length = 2 * as.length := by
    intro as
    induction as with
    | nil => rfl
    | cons a as ih => simp only [limitCols, List.length_cons, List.length_append, List.flatMap_cons] at ih ⊢; simp at ih ⊢; omega
  have ha : ∀ (vs : List Vl) (as : List (List (List Val))), (addVls vs as).length = vs.length := by
    intro vs
    induction vs with
    | nil => intro as; cases as <;> rfl
    | cons v vs ih =>
      intro as
      cases as with
      | nil => rfl
      | cons a as => simp [addVls, ih]
  have hv : ∀ {a0s as : List Arr} {vs : List Vl} {is : List (List Cell)} {ls : List (Nat × Nat)},
      AInv a0s as vs is ls → vs.length = a0s.length := by
    intro a0s as vs is ls h
    induction h with
    | nil => rfl
    | cons _ _ ih => simp [ih]
  have := storeRow_refused hr (row' := bounds (addVls w.vls (emitOf en).adds))
    (cols' := limitCols l.arrs) (by rw [hb, hl, ha, hv h.arrs])
  have hs : storeRow w.tab.cols ((emitOf en).row ++ bounds (addVls w.vls (emitOf en).adds)) =
      .error e := by rw [h.cols]; exact this
  constructor
  · unfold Work.add
    simp only [hs]
    rfl
  · unfold Work.addLeft
    simp only [hs]

/-- the loop of a reader on a record that is wrong, or whose row cannot be stored -/
theorem loop_bad {past : List LRec} {first : Bool} {r : LRec} {e : Err} {rest : List LRec}
    (h : Bad e0 past rest.head? first r e) {body : Body} (hb : BodyFor r.name body) {l : Layout}
    (hl : l ∈ layouts) (hln : l.name = r.name) (B fuel : Nat) {w : Work} {t : Acc} (hw : WInv l w t)
    {env : Env} (he : EnvInv e0 past env) (hg : first = true → env.grid = none) :
    Prog.run (L.reader sk) (loop B body r.name (fuel + 1) w env (r.name, r.head)) ⟨r, 0, rest⟩ =
      .error e ∧
    ∃ elem, loopLeft (L.reader sk) B body r.name (fuel + 1) w env (r.name, r.head) ⟨r, 0, rest⟩ =
      (w.tab, elem) ∧ ∀ k t, elem k = some t ↔ TypeOf e0 (r :: past) k t := by
  rcases h with h | ⟨-, h1, en, l', hm, hl', hln', hr⟩
  · obtain ⟨k1, k2⟩ := loop_wrong (sk := sk) h hb B fuel w he hg rest
    exact ⟨k1, _, k2, bodyLeft_wrong h he⟩
  · have : l' = l := layout_eq hl' hl (by rw [hln', hln])
    subst this
    obtain ⟨body', hb', hrun⟩ := means_run hm h1
    have := hb'.unique hb
    subst this
    obtain ⟨env1, o2, hrun1, he1⟩ := hrun env he sk
    obtain ⟨k1, k2⟩ := hw.refused B hr
    refine ⟨?_, env1.elem, ?_, fun k t => he1.elem_iff k t⟩
    · simp only [loop]
      rw [if_pos trivial, Prog.run_bind_ok hrun1]
      exact Prog.run_bind_error (by rw [k1]; rfl)
    · simp only [loopLeft]
      rw [if_pos trivial, hrun1]
      simp only [k1, k2]

theorem bad_reader {past : List LRec} {first : Bool} {r : LRec} {e : Err} {rest : List LRec}
    (h : Bad e0 past rest.head? first r e) : ∃ body, BodyFor r.name body := by
  rcases h with h | ⟨-, h1, en, l', hm, -⟩
  · obtain ⟨body, hb, -⟩ := wrong_run h
    exact ⟨body, hb⟩
  · obtain ⟨body, hb, -⟩ := means_run hm h1
    exact ⟨body, hb⟩

/-- the record added to what is there -/
theorem contents_snoc {l : Layout} {done blk : List Added} {o : Added} (hn : o.name = l.name)
    (hf : o.first = false) : (contents l (done ++ blk)).add false o.cells o.items =
      contents l (done ++ (blk ++ [o])) := by
  rw [← List.append_assoc, contents_append l (done ++ blk) [o],
    ofType_same (n := l.name) (by simpa using hn)]
  simp [hf]

theorem run_bind2_error {σ α β γ : Type} {R : Reader σ} {p : Prog α} {q : α → Prog β}
    {g : β → Prog γ} {s : σ} {e : Err} (h : Prog.run R (p.bind q) s = .error e) :
    Prog.run R (p.bind fun a => (q a).bind g) s = .error e := by
  rw [Prog.run_bind] at h ⊢
  cases hp : Prog.run R p s with
  | error e' => rw [hp] at h; cases h; rfl
  | ok x =>
    rw [hp] at h
    exact Prog.run_bind_error h

/-- the loop of a reader from the end of a record on -/
theorem loop_next {nm : String} {past f : List LRec} {outs : List Added} {e : Err} {c : Stop}
    (h : BadBlock e0 nm past f outs e c) (hnm : nm ≠ "IDENT") {body : Body}
    (hb : BodyFor nm body) {l : Layout} (hl : l ∈ layouts) (hln : l.name = nm) (B : Nat)
    {fuel : Nat} (hfuel : f.length ≤ fuel)
    {w : Work} {env : Env} {done blk : List Added} (hw : WInv l w (contents l (done ++ blk)))
    (hbuf : Buffered B l w done blk) (he : EnvInv e0 past env) {cr : LRec} (o1 : Nat)
    (h1 : cr.pre = []) (h2 : cr.vals = []) :
    Prog.run (L.reader sk) (Prog.bind header fun h => loop B body nm fuel w env h) ⟨cr, o1, f⟩ =
      .error e ∧
    ∃ elem, (match Prog.run (L.reader sk) header ⟨cr, o1, f⟩ with
        | .error _ => (w.tab, env.elem)
        | .ok (h', s'') => loopLeft (L.reader sk) B body nm fuel w env h' s'') =
      ((contents l (done ++ (blk ++ outs).take
        ((blk ++ outs).length - (blk ++ outs).length % B))).table l, elem) ∧
      ∀ k t, elem k = some t ↔ TypeOf e0 (c.record :: c.before) k t := by
  induction h generalizing fuel w env blk cr o1 with
  | @ends past =>
    rw [run_header_ends h1 h2]
    refine ⟨Prog.run_bind_error (run_header_ends h1 h2), env.elem, ?_, fun k t => ?_⟩
    · rw [List.append_nil, ← hbuf.2]
    · rw [typeOf_skip (show endMark.name ≠ _ by decide)]
      exact he.elem_iff k t
  | @bad past r0 rest0 e hn hwr =>
    rw [Prog.run_bind_ok (run_header' h1 h2), run_header' h1 h2]
    cases fuel with
    | zero => simp at hfuel
    | succ fuel =>
      subst hn
      obtain ⟨k1, elem, k2, k3⟩ := loop_bad (sk := sk) hwr hb hl hln B fuel hw he (by simp)
      refine ⟨k1, elem, k2.trans ?_, k3⟩
      rw [List.append_nil, hbuf.2]
  | @step past r0 rest0 o outs e c hn ha hb' ih =>
    rw [Prog.run_bind_ok (run_header' h1 h2), run_header' h1 h2]
    cases fuel with
    | zero => simp at hfuel
    | succ fuel =>
      have hfirst := adds_first ha
      obtain ⟨en, l', hm, hl', hln', ho, _, hr, hi⟩ := ha
      have : l' = l := layout_eq hl' hl (by rw [hln', hln, hn])
      subst this
      obtain ⟨body', hb1, hrun⟩ := means_run hm (by rw [hn]; exact hnm)
      rw [hn] at hb1
      have := hb1.unique hb
      subst this
      obtain ⟨env1, o2, hrun1, he1⟩ := hrun env he sk
      obtain ⟨w1, hw1, hinv1, hbuf1⟩ := hbuf.add hw hr hi
        (contents_snoc (by rw [ho, hln']) hfirst)
      obtain ⟨hrec, elem, hleft, helem⟩ := ih (by simpa using hfuel) hinv1 hbuf1 he1
        (cr := Verif.Parse.done r0) o2 rfl rfl
      rw [hn] at hrun1
      refine ⟨?_, elem, ?_, helem⟩
      · simp only [loop]
        rw [if_pos hn]
        rw [Prog.run_bind_ok hrun1, Prog.run_bind_ok (Prog.run_lift_ok hw1)]
        exact hrec
      · simp only [loopLeft]
        rw [if_pos hn, hrun1]
        simp only [hw1]
        rw [List.append_assoc, List.singleton_append] at hleft
        revert hleft
        cases Prog.run (L.reader sk) header ⟨Verif.Parse.done r0, o2, rest0⟩ <;> exact id

theorem BadBlock.stop {nm : String} {past f : List LRec} {outs : List Added} {e : Err} {c : Stop}
    (h : BadBlock e0 nm past f outs e c) : c.inside = true ∧
      (c.opened = true ∧ c.record.name = nm ∨ c.opened = false) ∧
      ∀ o ∈ outs, o.first = false ∧ o.name = nm := by
  induction h with
  | bad hn _ => exact ⟨rfl, .inl ⟨rfl, hn⟩, by simp⟩
  | ends => exact ⟨rfl, .inr rfl, by simp⟩
  | step hn ha _ ih =>
    refine ⟨ih.1, ih.2.1, fun o ho => ?_⟩
    rcases List.mem_cons.mp ho with rfl | ho
    · exact ⟨adds_first ha, (adds_name ha).trans hn⟩
    · exact ih.2.2 o ho

/-- hierarchy records declare no element types -/
theorem BadBlock.hier {past f : List LRec} {outs : List Added} {e : Err} {c : Stop}
    (h : BadBlock e0 "HIERARCH" past f outs e c) (k t : Int) :
    TypeOf e0 (c.record :: c.before) k t ↔ TypeOf e0 past k t := by
  induction h with
  | bad hn _ => exact typeOf_skip (by rw [hn]; decide)
  | ends => exact typeOf_skip (show endMark.name ≠ _ by decide)
  | step hn _ _ ih => rw [ih, typeOf_skip (by rw [hn]; decide)]

/-- a call of `general_parser` that raises ends the loop -/
theorem parseLoop_error {B fuel n : Nat} {st : St} {r : LRec} {rest : List LRec} {e : Err}
    (hne : r.name ≠ "") (hsel : Selected only r.name)
    (h : Prog.run (L.reader sk) (generalParser B fuel st (r.name, r.head)) ⟨r, 0, rest⟩ = .error e) :
    Prog.run (L.reader sk) (parseLoop B only fuel (n + 1) st (some (r.name, r.head))) ⟨r, 0, rest⟩ =
      .error e ∧
    parseLoopLeft (L.reader sk) B only fuel (n + 1) st (some (r.name, r.head)) ⟨r, 0, rest⟩ =
      generalLeft (L.reader sk) B fuel st (r.name, r.head) ⟨r, 0, rest⟩ := by
  constructor
  · simp only [parseLoop]
    rw [if_neg hne, selected_eq hsel, if_pos rfl]
    exact Prog.run_bind_error h
  · simp only [parseLoopLeft]
    rw [if_neg hne, selected_eq hsel, if_pos rfl, h]

theorem generalLeft_reader {B fuel : Nat} {st : St} {r : LRec} {rest : List LRec} {rd : Rd}
    (hv : NotVoid r) (hrd : readers r.name = some rd) :
    generalLeft (L.reader sk) B fuel st (r.name, r.head) ⟨r, 0, rest⟩ =
    readerLeft (L.reader sk) B fuel rd
      { st with g := { st.g with recordNames := st.g.recordNames ++ [r.name] } } (r.name, r.head)
      ⟨r, 0, rest⟩ := by
  obtain ⟨x, t, hx, hneg⟩ := hv
  unfold generalLeft
  simp only
  rw [hx]
  simp only
  rw [if_neg (by simp [hneg]), hrd]

/-- `general_parser` on a record that is not void calls the reader -/
theorem generalParser_reader {B fuel : Nat} {st : St} {r : LRec} {rest : List LRec} {rd : Rd}
    (hv : NotVoid r) (hrd : readers r.name = some rd) :
    Prog.run (L.reader sk) (generalParser B fuel st (r.name, r.head)) ⟨r, 0, rest⟩ =
    Prog.run (L.reader sk) (runReader B fuel rd
      { st with g := { st.g with recordNames := st.g.recordNames ++ [r.name] } } (r.name, r.head))
      ⟨r, 0, rest⟩ := by
  obtain ⟨x, t, hx, hneg⟩ := hv
  unfold generalParser
  simp only
  rw [hx, Prog.run_bind_ok run_idx, if_neg (by simp [hneg]), hrd]

/-- `general_parser` on a record it stops at before a table -/
theorem stuck_run {r : LRec} {e : Err} (h : Stuck r e) {B fuel : Nat} {st : St} {rest : List LRec} :
    r.name ≠ "" ∧ e ≠ .outOfFuel ∧
    Prog.run (L.reader sk) (generalParser B fuel st (r.name, r.head)) ⟨r, 0, rest⟩ = .error e ∧
    generalLeft (L.reader sk) B fuel st (r.name, r.head) ⟨r, 0, rest⟩ = st.left ∧
    ∀ k a, ¬ DeclType k r a := by
  have hne : ∀ {l i e}, NoInt l i e → e ≠ .outOfFuel := by
    intro l i e h
    cases h <;> simp
  cases h with
  | empty h1 h2 =>
    refine ⟨h1, by simp, ?_, ?_, ?_⟩
    · unfold generalParser
      apply Prog.run_bind_error
      simp [h2, idx, pyIdx, Prog.lift]
    · unfold generalLeft
      simp only [h2]
    · rintro k a ⟨_, x, y, z, u, h, _⟩
      rw [h2] at h
      cases h
  | size h1 h2 h3 =>
    have hrd : readers r.name = some .irecsize := by rw [h1]; rfl
    refine ⟨by rw [h1]; decide, hne h3, ?_, ?_, ?_⟩
    · rw [generalParser_reader h2 hrd]
      exact Raises.first (Raises.intAt h3 r) sk 0 rest
    · rw [generalLeft_reader h2 hrd]
      rfl
    · rintro k a ⟨h, _⟩
      rw [h1] at h
      exact absurd h (by decide)
  | mesh h1 h2 h3 =>
    have hrd : readers r.name = some (.block sconmeshCheck sconmeshBody) := by rw [h1]; rfl
    have hc : sconmeshCheck r.head = .error e := by
      unfold sconmeshCheck
      cases h3 with
      | missing h =>
        have : pyIdx r.head 2 = .error .indexError := by
          unfold pyIdx
          rw [List.getElem?_eq_none h]
        rw [this]
        rfl
      | nan h => rw [pyIdx_ok.mpr h]; rfl
      | inf b h => rw [pyIdx_ok.mpr h]; rfl
    refine ⟨by rw [h1]; decide, hne h3, ?_, ?_, ?_⟩
    · rw [generalParser_reader h2 hrd]
      show Prog.run _ (blockReader _ _ _ _ _ _) _ = _
      unfold blockReader
      apply Prog.run_bind_error
      rw [hc]
      rfl
    · rw [generalLeft_reader h2 hrd]
      show blockLeft _ _ _ _ _ _ _ _ = _
      unfold blockLeft
      simp only [hc]
      rfl
    · rintro k a ⟨h, _⟩
      rw [h1] at h
      exact absurd h (by decide)
  | @hierarchy head a b c d vals pad _ h2 h3 =>
    let r : LRec := ⟨"HIERARCH", head, [], 0, [a, b, c, d] ++ vals, pad⟩
    have hrd : readers r.name = some .hierarch := rfl
    have hr : ∀ {α : Type} (g : List PyF → Int → Prog α), Raises (Prog.bind (Seq.floats 4) fun rec2 =>
        Prog.bind (intAt r.head 2) (g rec2)) r e := fun g =>
      Raises.bind (Reads.floats rfl (fun _ => rfl)) (Raises.first (Raises.intAt h3 _))
    refine ⟨by simp, hne h3, ?_, ?_, ?_⟩
    · rw [generalParser_reader h2 hrd]
      exact hr _ sk 0 rest
    · rw [generalLeft_reader h2 hrd]
      show hierarchLeft _ _ _ _ _ _ = _
      unfold hierarchLeft
      have := hr (fun rec2 n => Prog.ret (rec2, n)) sk 0 rest
      dsimp only
      rw [show Prog.run (L.reader sk) (Prog.bind (Seq.floats 4) fun rec2 =>
        Prog.bind (intAt head 2) fun n => Prog.ret (rec2, n))
          ⟨⟨"HIERARCH", head, [], 0, a :: b :: c :: d :: vals, pad⟩, 0, rest⟩ = .error e from this]
      rfl
    · rintro k a ⟨h, _⟩
      simp at h

variable {pl : Place} {p : Path} {h0 : H5} {s : Int}

theorem mkGroups_left (h0 : H5) (p : Path) :
    (∀ q, q <+: p → q ≠ [] → (mkGroups h0 p).groups q = some ((h0.groups q).getD {})) ∧
    (∀ q, ¬ q <+: p ∨ q = [] → (mkGroups h0 p).groups q = h0.groups q) := by
  constructor
  · intro q h1 h2
    simp [mkGroups, h1, h2]
  · intro q h
    simp only [mkGroups]
    rw [if_neg]
    rintro ⟨h1, h2⟩
    rcases h with h | h
    · exact h h1
    · exact h2 h

theorem hasTable_dec (n : String) : HasTable n ∨ ¬ HasTable n := Classical.em _

/-- what is left behind by a conversion that stops between two blocks -/
theorem Core.leaves {done : List Added} {sel : Option Int} {hier : Bool} {st : St}
    (h : Core pl p h0 done sel hier st) (hd : done ≠ []) {B : Nat} {c : Stop}
    (hfree : ∀ l ∈ layouts, h0.tabs (p, l.name) = none) (hin : c.inside = false)
    (hop : c.opened = false) (hel : ∀ k t, st.env.elem k = some t ↔
      TypeOf e0 (c.record :: c.before) k t) :
    LeftBehind B c done e0 h0 p st.h5 st.env.elem where
  tables l hl ht := by
    have := h.tabs l hl
    unfold TabOK at this
    rcases ht with ht | ht
    · rw [if_neg ht] at this
      unfold Stop.written
      rw [hin, if_neg (by simp)]
      exact this.2
    · rw [hop] at ht; simp at ht
  others k hk := by
    rcases hk with hk | ⟨hk, _⟩
    · exact h.other k (.inl hk)
    · by_cases hp : k.1 = p
      · rcases hasTable_dec k.2 with ⟨l, hl, hln⟩ | ht
        · have := h.tabs l hl
          unfold TabOK at this
          rw [hln, if_pos hk] at this
          have hk' : k = (p, l.name) := by rw [← hp, hln]
          rw [hk', hfree l hl, hln]
          exact this.2
        · exact h.other k (.inr ht)
      · exact h.other k (.inl hp)
  groups := by
    rw [h.groups, if_neg hd]
    exact (mkGroups_left h0 p).1
  rest := by
    rw [h.groups, if_neg hd]
    exact (mkGroups_left h0 p).2
  elements := hel

/-- what is left behind by a conversion that stops in a block -/
theorem Opened.leaves {done new : List Added} {sel : Option Int} {hier : Bool} {l : Layout} {st : St}
    (h : Opened pl p h0 done sel hier l st) (hl : l ∈ layouts)
    (hnew : ∀ o ∈ new, o.name = l.name) {B : Nat} {c : Stop} {n : Nat}
    (hfree : ∀ l ∈ layouts, h0.tabs (p, l.name) = none)
    (hop : c.opened = true ∧ c.record.name = l.name ∨
      c.opened = false ∧ ofType l.name (done ++ new) ≠ []) (hwr : c.written B (done ++ new) = done ++ new.take n)
    {elem : Int → Option Int}
    (hel : ∀ k t, elem k = some t ↔ TypeOf e0 (c.record :: c.before) k t) :
    LeftBehind B c (done ++ new) e0 h0 p
      (st.h5.put p l.name ((contents l (done ++ new.take n)).table l)) elem where
  tables l' hl' ht := by
    rw [hwr]
    by_cases hn : l'.name = l.name
    · have := layout_eq hl' hl hn
      subst this
      simp [H5.put]
    · have ht' : ofType l'.name done ≠ [] := by
        rcases ht with ht | ht
        · rwa [ofType_append, ofType_other hnew hn, List.append_nil] at ht
        · rcases hop with hop | hop
          · exact absurd (ht.2.symm.trans hop.2) hn
          · rw [hop.1] at ht; cases ht.1
      have := h.tabs l' hl' hn
      unfold TabOK at this
      rw [if_neg ht'] at this
      have e1 : contents l' (done ++ new.take n) = contents l' done := by
        rw [contents_append, ofType_other (fun o ho => hnew o (List.mem_of_mem_take ho)) hn]
        rfl
      rw [e1, ← this.2]
      simp [H5.put, hn]
  others k hk := by
    have hne : k ≠ (p, l.name) := by
      rintro rfl
      rcases hk with hk | ⟨_, hk⟩
      · exact hk rfl
      · rcases hop with hop | hop
        · exact hk hop
        · exact hop.2 (by assumption)
    have hput : (st.h5.put p l.name ((contents l (done ++ new.take n)).table l)).tabs k =
        st.h5.tabs k := by simp [H5.put, hne]
    rw [hput]
    rcases hk with hk | ⟨hk, hk2⟩
    · exact h.other k (.inl hk)
    · by_cases hp : k.1 = p
      · rcases hasTable_dec k.2 with ⟨l', hl', hln⟩ | ht
        · have hn : l'.name ≠ l.name := by
            intro hn
            rcases hop with hop | hop
            · exact hk2 ⟨hop.1, by rw [hop.2, ← hn, hln]⟩
            · rw [← hln, hn] at hk
              exact hop.2 hk
          have := h.tabs l' hl' hn
          unfold TabOK at this
          rw [hln, if_pos] at this
          · have hk' : k = (p, l'.name) := by rw [← hp, hln]
            rw [hk', hfree l' hl', hln]
            exact this.2
          · rw [ofType_append] at hk
            exact (List.append_eq_nil_iff.mp hk).1
        · exact h.other k (.inr ht)
      · exact h.other k (.inl hp)
  groups := by
    show ∀ q, _ → _ → st.h5.groups q = _
    rw [h.groups]
    exact (mkGroups_left h0 p).1
  rest := by
    show ∀ q, _ → st.h5.groups q = _
    rw [h.groups]
    exact (mkGroups_left h0 p).2
  elements := hel

theorem lastBlock_eq {done : List Added} {o : Added} {new : List Added} (ho : o.first = true)
    (hnew : ∀ o ∈ new, o.first = false) : lastBlock (done ++ o :: new) = (o :: new).length := by
  unfold lastBlock
  have : (done ++ o :: new).reverse = new.reverse ++ o :: done.reverse := by simp
  rw [this, List.takeWhile_append_of_pos (by simpa using hnew), List.takeWhile_cons, ho]
  simp

theorem blockReader_fails (hp : p = pl.path s) (hs : s ≠ 0) (hin : pl.In h0) {done : List Added}
    {hier : Bool} {st : St} (hc : Core pl p h0 done (some s) hier st) (hitems : ItemsOK done)
    {r : LRec} {rest : List LRec} {l : Layout} (hl : l ∈ layouts) (hln : l.name = r.name)
    (hf : FirstOK r) {body : Body} (B fuel : Nat)
    {e : Err} {T : Tab} {elem : Int → Option Int}
    (hloop : WInv l (Work.open ((contents l done).table l)) (contents l done).fresh →
      Prog.run (L.reader sk) (loop B body r.name fuel (Work.open ((contents l done).table l))
        { st.env with grid := none } (r.name, r.head)) ⟨r, 0, rest⟩ = .error e ∧
      loopLeft (L.reader sk) B body r.name fuel (Work.open ((contents l done).table l))
        { st.env with grid := none } (r.name, r.head) ⟨r, 0, rest⟩ = (T, elem)) :
    Prog.run (L.reader sk) (blockReader B fuel
      (if r.name = "SCONMESH" then sconmeshCheck else noCheck) body st (r.name, r.head))
      ⟨r, 0, rest⟩ = .error e ∧
    ∃ st1, Opened pl p h0 done (some s) hier l st1 ∧ blockLeft (L.reader sk) B fuel
      (if r.name = "SCONMESH" then sconmeshCheck else noCheck) body st (r.name, r.head)
      ⟨r, 0, rest⟩ = ⟨st1.h5.put p l.name T, elem⟩ := by
  obtain ⟨st1, hg1, ho1, henv1, hnames1⟩ := getTable_run hc hp hs hin hl
  rw [hln] at hg1
  obtain ⟨k1, k2⟩ := hloop (WInv.open (l := l) (contents_length (hitems l hl)))
  constructor
  · unfold blockReader
    rw [Prog.run_bind_ok (Prog.run_lift_ok (sconmeshCheck_ok hf rfl)),
      Prog.run_bind_ok (Prog.run_lift_ok hg1)]
    simp only [henv1]
    exact Prog.run_bind_error k1
  · refine ⟨st1, ho1, ?_⟩
    unfold blockLeft
    simp only [sconmeshCheck_ok hf rfl, hg1, henv1, k2, hln]

/-- `hierarch_reader` on a file that ends in its block -/
theorem hierarch_fails (hp : p = pl.path s) (hs : s ≠ 0) (hin : pl.In h0) {done : List Added}
    {sel : Option Int} {hier : Bool} {st : St} (hc : Core pl p h0 done sel hier st)
    {past : List LRec} (he : EnvInv e0 past st.env) (hitems : ItemsOK done) {r : LRec}
    {rest : List LRec} {o : Added} {outs : List Added} {e : Err} {c : Stop}
    (ha : Adds e0 past rest.head? true r o) (hb : BadBlock e0 r.name (r :: past) rest outs e c)
    (hn : r.name = "HIERARCH") (hsel : HasField o.cells 2 s) {l : Layout} (hl : l ∈ layouts)
    (hln : l.name = r.name) (B : Nat) {fuel : Nat} (hfuel : rest.length ≤ fuel)
    (sk : LRec → Bool) :
    Prog.run (L.reader sk) (runReader B fuel .hierarch st (r.name, r.head)) ⟨r, 0, rest⟩ =
      .error e ∧
    ∃ st1, Opened pl p h0 done (some s) hier l st1 ∧
      readerLeft (L.reader sk) B fuel .hierarch st (r.name, r.head) ⟨r, 0, rest⟩ =
      ⟨st1.h5.put p l.name ((contents l (done ++ (o :: outs).take
        ((o :: outs).length - (o :: outs).length % B))).table l), st.env.elem⟩ := by
  have ha' := ha
  obtain ⟨_, _, _, _, _, hon, hof, _, _⟩ := ha'
  obtain ⟨head, a, b, c', d, ihs, pad, rfl, hd, l', hl', hln', hr, hi⟩ := adds_hierarch ha hn
  have : l' = l := layout_eq hl' hl (by rw [hln', hln])
  subst this
  have hlay : l' = layouts.head (by decide) := layout_eq hl (List.head_mem _) (by rw [hln]; rfl)
  have hheadlen : head.length = 4 := by
    have := hr.2.1
    rw [hlay] at this
    simp [numbers, layouts] at this
    exact this
  obtain ⟨x0, x1, x2, x3, rfl⟩ : ∃ x0 x1 x2 x3, head = [x0, x1, x2, x3] := by
    match head, hheadlen with
    | [x0, x1, x2, x3], _ => exact ⟨x0, x1, x2, x3, rfl⟩
  have hx2 : HasInt x2 s := by
    refine storedRow_int hr (i := 2) (c := colI "iselty") ?_ rfl rfl rfl hsel
    rw [hlay]; rfl
  have hc0 : Core pl p h0 done (some s) hier { st with g := { st.g with currentSeltyp := some s } } :=
    hc.setG (hc.g.setSel _) rfl
  obtain ⟨st1, hg1, ho1, henv1, hnames1⟩ := getTable_run hc0 hp hs hin hl
  rw [hln] at hg1
  have hw0 := WInv.open (l := l') (contents_length (hitems l' hl))
  have hoadd : (contents l' done).fresh.add false o.cells o.items =
      contents l' (done ++ ([] ++ [o])) := by
    rw [← Acc.add_first, List.nil_append, contents_append l' done [o],
      ofType_same (n := l'.name) (by simpa using hon.trans hln.symm)]
    simp [hof]
  obtain ⟨w1, hadd1, hinv1, hbuf1⟩ := (Buffered.open B l' done).add
    (e := ⟨numbers ([x0, x1, x2, x3] ++ [a, b, c', d]), [some (numbers ihs)]⟩) hw0 hr hi hoadd
  have hrd1 : Reads (floats 4) (⟨"HIERARCH", [x0, x1, x2, x3], [], 0, a :: b :: c' :: d :: ihs, pad⟩)
      [a, b, c', d] ⟨"HIERARCH", [x0, x1, x2, x3], [], 0, ihs, pad⟩ :=
    Reads.floats (a := [a, b, c', d]) (b := ihs) rfl (fun _ => rfl)
  have hrd2 : Reads (hierarchRest [x0, x1, x2, x3] [a, b, c', d])
      ⟨"HIERARCH", [x0, x1, x2, x3], [], 0, ihs, pad⟩
      (emitOf ⟨numbers ([x0, x1, x2, x3] ++ [a, b, c', d]), [some (numbers ihs)]⟩)
      ⟨"HIERARCH", [x0, x1, x2, x3], [], 0, [], pad⟩ := by
    refine Reads.bind (Reads.intAt (x := d) rfl hd _) ?_
    exact Reads.bind (Reads.floatsAll rfl (fun _ => rfl)) (Reads.ret _ _)
  have he1 : EnvInv e0 (⟨"HIERARCH", [x0, x1, x2, x3], [], 0, a :: b :: c' :: d :: ihs, pad⟩ :: past)
      st1.env := by
    rw [henv1]; exact he.skip' (plainB rfl)
  obtain ⟨o1, e1⟩ := hrd1 sk 0 rest
  obtain ⟨o2, e2⟩ := Reads.intAt (l := [x0, x1, x2, x3]) (i := 2) (x := x2) rfl hx2
    ⟨"HIERARCH", [x0, x1, x2, x3], [], 0, ihs, pad⟩ sk o1 rest
  obtain ⟨o3, e3⟩ := hrd2 sk o2 rest
  obtain ⟨m1, elem, m2, -⟩ := loop_next (sk := sk) hb
    (show "HIERARCH" ≠ "IDENT" by decide) (.inr ⟨rfl, rfl⟩) hl hln B hfuel
    hinv1 hbuf1 he1 (cr := ⟨"HIERARCH", [x0, x1, x2, x3], [], 0, [], pad⟩) o3 rfl rfl
  rw [List.nil_append, List.singleton_append] at m2
  constructor
  · show Prog.run _ (hierarchReader B fuel st ("HIERARCH", [x0, x1, x2, x3])) _ = _
    unfold hierarchReader
    rw [Prog.run_bind_ok e1, Prog.run_bind_ok e2]
    simp only
    rw [Prog.run_bind_ok (Prog.run_lift_ok hg1)]
    rw [Prog.run_bind_ok e3, Prog.run_bind_ok (Prog.run_lift_ok hadd1)]
    exact run_bind2_error m1
  · refine ⟨st1, ho1, ?_⟩
    show hierarchLeft _ B fuel st ("HIERARCH", [x0, x1, x2, x3]) _ = _
    unfold hierarchLeft
    dsimp only
    rw [Prog.run_bind_ok e1, Prog.run_bind_ok e2, Prog.run_ret]
    dsimp only
    have hg1' : getTable "HIERARCH" { st with g := { st.g with currentSeltyp := some s } } = _ := hg1
    rw [hg1']
    dsimp only
    rw [e3]
    dsimp only
    rw [hadd1]
    dsimp only
    rw [hln]
    revert m2
    cases Prog.run (L.reader sk) header
      ⟨⟨"HIERARCH", [x0, x1, x2, x3], [], 0, [], pad⟩, o3, rest⟩ with
    | error e' =>
      intro m2
      have := congrArg Prod.fst m2
      dsimp only at this ⊢
      rw [this]
    | ok x =>
      intro m2
      have := congrArg Prod.fst m2
      dsimp only at this ⊢
      rw [this]

/-- `ident_reader` on a file that ends behind its record -/
theorem ident_fails (hp : p = pl.path s) (hs : s ≠ 0) (hin : pl.In h0) {done : List Added}
    {hier : Bool} {st : St} (hc : Core pl p h0 done (selOf s done) hier st) {past : List LRec}
    (he : EnvInv e0 past st.env) {r : LRec} {o : Added}
    (ha : Adds e0 past none true r o) (hn : r.name = "IDENT")
    (hsel : done = [] → HasField o.cells 1 s) (B fuel : Nat) :
    Prog.run (L.reader sk) (runReader B fuel .ident st (r.name, r.head)) ⟨r, 0, []⟩ =
      .error .structError ∧ ∃ st',
      readerLeft (L.reader sk) B fuel .ident st (r.name, r.head) ⟨r, 0, []⟩ =
        ⟨st'.h5, st'.env.elem⟩ ∧
      Core pl p h0 (done ++ [o]) (some s) hier st' ∧ EnvInv e0 (r :: past) st'.env := by
  have ha' := ha
  obtain ⟨_, _, _, _, _, hon, hof, _, _⟩ := ha'
  obtain ⟨a, b, c, d, skn, pad, i, j, k, rfl, hi, hj, hk, hcells, hitems⟩ := adds_ident ha hn
  let st0 : St := { st with g := { st.g with currentSeltyp := some s } }
  have hc0 : Core pl p h0 done (some s) hier st0 := hc.setG (hc.g.setSel _) rfl
  let l : Layout := ⟨"IDENT", [colI "slevel", colI "seltyp", colI "selmod"], []⟩
  have hl : l ∈ layouts := by decide +kernel
  obtain ⟨st1, hg1, ho1, henv1, hnames1⟩ := getTable_run hc0 hp hs hin hl
  have hcont : (contents l (done ++ [o])).table l =
      { (contents l done).table l with rows := ((contents l done).table l).rows ++
          [[.sc (.int i), .sc (.int j), .sc (.int k)]] } := by
    rw [contents_append, ofType_same (by simpa using hon)]
    simp only [List.foldl_cons, List.foldl_nil, Acc.table, Acc.add, hcells, hitems]
    simp [limits, l]
  let cr : LRec := ⟨"IDENT", [a, b, c, d], [], skn, [], pad⟩
  obtain ⟨o1, e1⟩ := Reads.intAt (l := [a, b, c, d]) (i := 1) (x := b) rfl hj cr sk 0 []
  have hfirst : Prog.run (L.reader sk) (if isTrue st.g.currentSeltyp then Prog.ret st
      else Prog.bind (intAt [a, b, c, d] 1) fun n =>
        .ret { st with g := { st.g with currentSeltyp := some n } }) ⟨cr, 0, []⟩ =
      .ok (st0, ⟨cr, (if done = [] then o1 else 0), []⟩) := by
    have hg := hc.g
    by_cases hd : done = []
    · have hst : st.g.currentSeltyp = none := by
        unfold GOk selOf at hg
        rw [if_pos hd] at hg
        cases pl <;> exact hg.2.2.2.1
      have : j = s := by
        have := hsel hd
        rw [hcells] at this
        simpa [HasField] using this
      subst this
      rw [hst, if_neg (by simp [isTrue]), Prog.run_bind_ok e1, if_pos hd]
      rfl
    · have hst : st.g.currentSeltyp = some s := by
        unfold GOk selOf at hg
        rw [if_neg hd] at hg
        cases pl <;> exact hg.2.2.2.1
      rw [if_pos (by simp [hst, isTrue, hs]), if_neg hd, Prog.run_ret]
      congr 2
      show st = { st with g := { st.g with currentSeltyp := some s } }
      rw [← hst]
  refine ⟨?_, { st1 with h5 := st1.h5.put p "IDENT" ((contents l (done ++ [o])).table l) }, ?_, ?_, ?_⟩
  · show Prog.run _ (identReader st ("IDENT", [a, b, c, d])) _ = _
    unfold identReader
    rw [Prog.run_bind_ok hfirst]
    rw [Prog.run_bind_ok (Prog.run_lift_ok hg1)]
    obtain ⟨o2, e2⟩ := Reads.intAt (l := [a, b, c, d]) (i := 0) (x := a) rfl hi cr sk
      (if done = [] then o1 else 0) []
    obtain ⟨o3, e3⟩ := Reads.intAt (l := [a, b, c, d]) (i := 1) (x := b) rfl hj cr sk o2 []
    obtain ⟨o4, e4⟩ := Reads.intAt (l := [a, b, c, d]) (i := 2) (x := c) rfl hk cr sk o3 []
    rw [Prog.run_bind_ok e2, Prog.run_bind_ok e3, Prog.run_bind_ok e4]
    simp only
    exact Prog.run_bind_error (run_header_ends rfl rfl)
  · show identLeft (L.reader sk) st ("IDENT", [a, b, c, d]) ⟨cr, 0, []⟩ = _
    unfold identLeft
    dsimp only
    rw [hfirst]
    dsimp only
    have hg1' : getTable "IDENT" st0 = _ := hg1
    rw [hg1']
    dsimp only
    obtain ⟨o2, e2⟩ := Reads.intAt (l := [a, b, c, d]) (i := 0) (x := a) rfl hi cr sk 0 []
    obtain ⟨o3, e3⟩ := Reads.intAt (l := [a, b, c, d]) (i := 1) (x := b) rfl hj cr sk o2 []
    obtain ⟨o4, e4⟩ := Reads.intAt (l := [a, b, c, d]) (i := 2) (x := c) rfl hk cr sk o3 []
    rw [Prog.run_bind_ok e2, Prog.run_bind_ok e3, Prog.run_bind_ok e4, Prog.run_ret]
    dsimp only
    rw [hcont, henv1]
  · have := ho1.close hl (new := [o]) (by simp) (by simpa using hon) st1.env
    exact this
  · rw [show (({ st1 with h5 := _ } : St).env) = st.env from henv1]
    exact he.skip' (plainB rfl)

/-- `hierarch_reader` on a first row that cannot be read or stored -/
theorem bad_row_read {e : Err} {r : LRec} (hbad : BadRow r e) (hv : NotVoid r) {x : PyF}
    (hx : r.head[2]? = some x) (hxs : HasInt x s) {l : Layout} (hl : l ∈ layouts)
    (hln : l.name = r.name) {T : Tab} {t : Acc} (hw0 : WInv l (Work.open T) t) (B fuel : Nat)
    (rest' : List LRec) (st1 st2 : St) (p : Path)
    (hg' : getTable r.name { st1 with g := { st1.g with
        recordNames := st1.g.recordNames ++ [r.name], currentSeltyp := some s } } =
          .ok (st2, p, T)) :
    Prog.run (L.reader sk) (generalParser B fuel st1 (r.name, r.head)) ⟨r, 0, rest'⟩ = .error e ∧
    generalLeft (L.reader sk) B fuel st1 (r.name, r.head) ⟨r, 0, rest'⟩ =
      ⟨st2.h5.put p r.name T, st1.env.elem⟩ := by
  have hrd : readers r.name = some .hierarch := by rw [hbad.name]; rfl
  obtain ⟨head, a, b, c, d, vals, pad, rfl, hrow⟩ : ∃ head a b c d vals pad,
      r = ⟨"HIERARCH", head, [], 0, a :: b :: c :: d :: vals, pad⟩ ∧
      (NoInt [a, b, c, d] 3 e ∨ HasInt d vals.length ∧ ∃ l ∈ layouts, l.name = "HIERARCH" ∧
        RowRefused l.cols (numbers (head ++ [a, b, c, d])) e) := by
    cases hbad with
    | count h => exact ⟨_, _, _, _, _, _, _, rfl, .inl h⟩
    | row h1 h2 h3 h4 => exact ⟨_, _, _, _, _, _, _, rfl, .inr ⟨h1, _, h2, h3, h4⟩⟩
  dsimp only at hx hrd hg' hln ⊢
  obtain ⟨o1, e1⟩ := Reads.floats (name := "HIERARCH") (head := head) (pad := pad) (sk := 0)
    (k := 0) (a := [a, b, c, d]) (b := vals) (n := 4) rfl (fun _ => rfl) sk 0 rest'
  change Prog.run (L.reader sk) (floats 4)
    ⟨⟨"HIERARCH", head, [], 0, a :: b :: c :: d :: vals, pad⟩, 0, rest'⟩ = _ at e1
  obtain ⟨o2, e2⟩ := Reads.intAt hx hxs ⟨"HIERARCH", head, [], 0, vals, pad⟩ sk o1 rest'
  have e3 : (∀ o, Prog.run (L.reader sk) (hierarchRest head [a, b, c, d])
      ⟨⟨"HIERARCH", head, [], 0, vals, pad⟩, o, rest'⟩ = .error e) ∨
      ∃ en, (∀ o, ∃ u, Prog.run (L.reader sk) (hierarchRest head [a, b, c, d])
        ⟨⟨"HIERARCH", head, [], 0, vals, pad⟩, o, rest'⟩ = .ok (emitOf en, u)) ∧
        RowRefused l.cols en.row e := by
    rcases hrow with hrow | ⟨h1, l', hl', hn', h2⟩
    · exact .inl fun o => Raises.first (Raises.intAt hrow _) sk o rest'
    · refine .inr ⟨⟨numbers (head ++ [a, b, c, d]), [some (numbers vals)]⟩, fun o => ?_, ?_⟩
      · have hrd2 : Reads (hierarchRest head [a, b, c, d]) ⟨"HIERARCH", head, [], 0, vals, pad⟩
            (emitOf ⟨numbers (head ++ [a, b, c, d]), [some (numbers vals)]⟩)
            ⟨"HIERARCH", head, [], 0, [], pad⟩ := by
          refine Reads.bind (Reads.intAt (x := d) rfl h1 _) ?_
          exact Reads.bind (Reads.floatsAll rfl (fun _ => rfl)) (Reads.ret _ _)
        obtain ⟨o', q⟩ := hrd2 sk o rest'
        exact ⟨_, q⟩
      · rwa [layout_eq hl hl' (hln.trans hn'.symm)]
  constructor
  · rw [generalParser_reader hv hrd]
    show Prog.run _ (hierarchReader _ _ _ _) _ = _
    unfold hierarchReader
    dsimp only
    rw [Prog.run_bind_ok e1, Prog.run_bind_ok e2]
    rw [Prog.run_bind_ok (Prog.run_lift_ok hg')]
    rcases e3 with e3 | ⟨en, e3, e4⟩
    · exact Prog.run_bind_error (e3 _)
    · obtain ⟨u, e3⟩ := e3 o2
      rw [Prog.run_bind_ok e3]
      exact Prog.run_bind_error (by rw [Prog.run_lift, (hw0.refused B e4).1])
  · rw [generalLeft_reader hv hrd]
    show hierarchLeft _ _ _ _ _ _ = _
    unfold hierarchLeft
    dsimp only
    rw [Prog.run_bind_ok e1, Prog.run_bind_ok e2]
    rw [Prog.run_ret]
    dsimp only
    rw [hg']
    dsimp only
    rcases e3 with e3 | ⟨en, e3, e4⟩
    · rw [e3]
      rfl
    · obtain ⟨u, e3⟩ := e3 o2
      obtain ⟨k1, k2⟩ := hw0.refused B e4
      rw [e3]
      dsimp only
      rw [k1]
      dsimp only
      rw [k2]
      rfl

set_option maxRecDepth 4000 in
/-- the loop of `parse_file` on a file with a wrong record -/
theorem parse_refuse (hp : p = pl.path s) (hs : s ≠ 0) (hin : pl.In h0)
    (hfree : ∀ l ∈ layouts, h0.tabs (p, l.name) = none) (B fuel : Nat) :
    ∀ (n : Nat) (past f : List LRec) (outs : List Added) (e : Err) (c : Stop),
      Refuses only sk e0 none past f outs e c → f.length < n → f.length < fuel →
      ∀ (k : Nat) (done : List Added) (st : St) (r : LRec) (rest : List LRec), f = r :: rest →
        f.length < k → GivesType s (done ++ outs) → pl.Allows s (done ++ outs) → c.Fits s →
        ItemsOK done →
        Core pl p h0 done (selOf s done) (hierOf done) st → EnvInv e0 past st.env →
        Prog.run (L.reader sk)
            (parseLoop B only fuel k st (some (r.name, r.head))) ⟨r, 0, rest⟩ = .error e ∧
        ∃ h elem, parseLoopLeft (L.reader sk) B only fuel k st (some (r.name, r.head))
            ⟨r, 0, rest⟩ = ⟨h, elem⟩ ∧ LeftBehind B c (done ++ outs) e0 h0 p h elem := by
  intro n
  induction n with
  | zero => intro past f outs e c _ h; omega
  | succ n ih =>
    intro past f outs e c hacc hn hfuel k done st r rest hf hk hgives hallows hfit hitems hcore henv
    rcases hacc.split (by simp) with ⟨f', hpass, hhead⟩ | ⟨hpass, rfl, rfl, rfl⟩
    rotate_left
    · obtain ⟨k1, k2⟩ := passesOut_run B fuel k f st r rest hf hk hfuel hpass
      refine ⟨k1, st.h5, st.env.elem, k2, ?_⟩
      rw [List.append_nil] at hgives ⊢
      have hd : done ≠ [] := by
        rintro rfl
        obtain ⟨o', ho', _⟩ := hgives
        simp at ho'
      refine hcore.leaves hd hfree rfl rfl fun k t => ?_
      rw [typeOf_skip (show endMark.name ≠ _ by decide)]
      exact henv.elem_iff k t
    obtain ⟨r', rest', hf', -⟩ := hpass.end
    have hlen := hpass.length
    obtain ⟨k', ns, m, hk', hrun⟩ := passes_run (sk := sk) B fuel hf' k f st r rest hf hk hfuel hpass
    rw [hrun.1, hrun.2]
    have hcore' : Core pl p h0 done (selOf s done) (hierOf done) (passed st ns m) :=
      hcore.setG ((hcore.g.names ns).size m) rfl
    have henv' : EnvInv e0 past (passed st ns m).env := henv
    generalize passed st ns m = st1 at hcore' henv'
    clear hrun hcore henv hpass
    have hfl' : f'.length < fuel := by omega
    have hn' : f'.length < n + 1 := by omega
    clear hlen hn hfuel hk hf hacc
    obtain ⟨k', rfl⟩ : ∃ j, k' = j + 1 := ⟨k' - 1, by omega⟩
    have hsel : done ≠ [] → selOf s done = some s := fun hd => by simp [selOf, hd]
    have hcoreN : Core pl p h0 done (selOf s done) (hierOf done)
      { st1 with g := { st1.g with recordNames := st1.g.recordNames ++ [r'.name] } } :=
      hcore'.addName _
    cases hhead with
    | @wrong r2 rest2 _ g1 g2 g3 =>
      simp only [List.cons.injEq] at hf'
      obtain ⟨rfl, rfl⟩ := hf'
      obtain ⟨ht, hn1, hn2, hn3, _⟩ := bad_names g3
      obtain ⟨body, hbody⟩ := bad_reader g3
      have hrd : readers r2.name =
          some (.block (if r2.name = "SCONMESH" then sconmeshCheck else noCheck) body) := by
        rcases hbody with h | ⟨h, _⟩
        · exact h
        · exact absurd h (hn2 rfl)
      have hd : done ≠ [] := by
        rintro rfl
        obtain ⟨o', ho', _⟩ := hgives
        simp at ho'
      rw [hsel hd] at hcoreN
      have ht' := ht
      obtain ⟨l, hl, hln⟩ := ht'
      obtain ⟨fuel', rfl⟩ : ∃ j, fuel = j + 1 := ⟨fuel - 1, by omega⟩
      obtain ⟨m1, elem, m2, m3⟩ := loop_bad (sk := sk) g3 hbody hl hln B fuel'
        (WInv.open (l := l) (contents_length (hitems l hl))) (henv'.regrid none) (fun _ => rfl)
      obtain ⟨q1, st2, ho2, q2⟩ := blockReader_fails (sk := sk) (rest := rest2) hp hs hin hcoreN
        hitems hl hln (hn3 rfl) B _ (fun _ => ⟨m1, m2⟩)
      obtain ⟨q3, q4⟩ := parseLoop_error (n := k') (hasTable_ne ht).1 g1
        ((generalParser_reader g2 hrd).trans q1)
      refine ⟨q3, _, _, (q4.trans (generalLeft_reader g2 hrd)).trans q2, ?_⟩
      have hx := ho2.leaves (new := []) (n := 0) (B := B) (c := ⟨r2, past, false, true⟩)
        hl (by simp) hfree (.inl ⟨rfl, hln.symm⟩) (by simp [Stop.written])
        m3
      simp only [List.take_nil, List.append_nil] at hx ⊢
      exact hx
    | @hier r2 rest2 _ g1 g2 g3 =>
      simp only [List.cons.injEq] at hf'
      obtain ⟨rfl, rfl⟩ := hf'
      obtain ⟨x, hx, hxs⟩ := hfit g3.name rfl rfl
      obtain ⟨l, hl, hln⟩ : ∃ l ∈ layouts, l.name = "HIERARCH" := by decide +kernel
      have hln' : l.name = r2.name := hln.trans g3.name.symm
      have hcoreS : Core pl p h0 done (some s) (hierOf done) { st1 with g := { st1.g with
          recordNames := st1.g.recordNames ++ [r2.name], currentSeltyp := some s } } :=
        hcoreN.setG (hcoreN.g.setSel _) rfl
      obtain ⟨st2, hg, ho2, -, -⟩ := getTable_run hcoreS hp hs hin hl
      obtain ⟨c2, c3⟩ := bad_row_read (sk := sk) g3 g2 hx hxs hl hln'
        (WInv.open (l := l) (contents_length (hitems l hl))) B fuel rest2 st1 st2 p (hln' ▸ hg)
      obtain ⟨q3, q4⟩ := parseLoop_error (n := k') (by rw [g3.name]; decide) g1 c2
      refine ⟨q3, _, _, q4.trans c3, ?_⟩
      have hx := ho2.leaves (new := []) (n := 0) (B := B) (c := ⟨r2, past, false, true⟩)
        hl (by simp) hfree (.inl ⟨rfl, hln'.symm⟩) (by simp [Stop.written])
        (e0 := e0) (elem := st1.env.elem) (fun k t => by
          rw [typeOf_skip (by rw [g3.name]; decide)]
          exact henv'.elem_iff k t)
      simp only [List.take_nil, List.append_nil] at hx ⊢
      rw [hln'] at hx
      exact hx
    | @mesh r2 rest2 x m g1 g2 g3 g4 g5 g6 =>
      simp only [List.cons.injEq] at hf'
      obtain ⟨rfl, rfl⟩ := hf'
      have hrd : readers r2.name = some (.block sconmeshCheck sconmeshBody) := by rw [g1]; rfl
      have : sconmeshCheck r2.head = .error .notImplemented := by
        unfold sconmeshCheck
        rw [pyIdx_ok.mpr g4]
        simp only [bind, Except.bind, hasInt_toInt g5]
        rw [if_pos (by omega)]
      have q1 : ∀ st', Prog.run (L.reader sk) (blockReader B fuel sconmeshCheck sconmeshBody st'
          (r2.name, r2.head)) ⟨r2, 0, rest2⟩ = .error .notImplemented := by
        intro st'
        unfold blockReader
        apply Prog.run_bind_error
        rw [this]
        rfl
      obtain ⟨q3, q4⟩ := parseLoop_error (n := k') (by rw [g1]; decide) g2
        ((generalParser_reader g3 hrd).trans (q1 _))
      refine ⟨q3, st1.h5, st1.env.elem, (q4.trans (generalLeft_reader g3 hrd)).trans ?_, ?_⟩
      · show blockLeft _ _ _ _ _ _ _ _ = _
        unfold blockLeft
        simp only [this]
        rfl
      · rw [List.append_nil]
        have hd : done ≠ [] := by
          rintro rfl
          obtain ⟨o', ho', _⟩ := hgives
          simp at ho'
        refine hcore'.leaves hd hfree rfl rfl fun k t => ?_
        rw [typeOf_skip (by rw [g1]; decide)]
        exact henv'.elem_iff k t
    | @stuck r2 rest2 _ g1 g2 =>
      simp only [List.cons.injEq] at hf'
      obtain ⟨rfl, rfl⟩ := hf'
      obtain ⟨c1, -, c2, c3, c4⟩ := stuck_run (sk := sk) g2 (B := B) (fuel := fuel) (st := st1)
        (rest := rest2)
      obtain ⟨q3, q4⟩ := parseLoop_error (n := k') c1 g1 c2
      refine ⟨q3, st1.h5, st1.env.elem, q4.trans c3, ?_⟩
      rw [List.append_nil]
      have hd : done ≠ [] := by
        rintro rfl
        obtain ⟨o', ho', _⟩ := hgives
        simp at ho'
      refine hcore'.leaves hd hfree rfl rfl fun k t => ?_
      rw [typeOf_other (fun a => c4 k a)]
      exact henv'.elem_iff k t
    | @first r2 rest2 o outs _ _ g1 g2 g3 g4 ha hacc =>
      simp only [List.cons.injEq] at hf'
      obtain ⟨rfl, rfl⟩ := hf'
      have ht := adds_table ha
      have hgiven : r2.name ≠ "HIERARCH" → done ≠ [] := by
        rintro hh rfl
        obtain ⟨o', ho', hh'⟩ := hgives
        simp only [List.nil_append, List.head?_cons, Option.some.injEq] at ho'
        subst ho'
        rcases hh' with hh' | hh'
        · exact g1 ((adds_name ha).symm.trans hh'.1)
        · exact hh ((adds_name ha).symm.trans hh'.1)
      rcases hacc.block ht g1 with hbad | ⟨new, outs', past', f', rfl, hblk, hnew, hlen, hacc'⟩
      · have ha' := ha
        obtain ⟨en, l, hm, hl, hln, hon, hof, hr, hi⟩ := ha'
        obtain ⟨c1, c2, c4⟩ := hbad.stop
        have hoadd : (contents l done).fresh.add false o.cells o.items =
            contents l (done ++ ([] ++ [o])) := by
          rw [← Acc.add_first, List.nil_append, contents_append l done [o],
            ofType_same (n := l.name) (by simpa using hon.trans hln.symm)]
          simp [hof]
        have hw0 := WInv.open (l := l) (contents_length (hitems l hl))
        obtain ⟨w1, hw1, hinv1, hbuf1⟩ := (Buffered.open B l done).add hw0 hr hi hoadd
        have hnames : ∀ o' ∈ o :: outs, o'.name = l.name := by
          intro o' ho'
          rcases List.mem_cons.mp ho' with rfl | ho'
          · exact hon.trans hln.symm
          · exact (c4 o' ho').2.trans hln.symm
        have hop : c.opened = true ∧ c.record.name = l.name ∨
            c.opened = false ∧ ofType l.name (done ++ o :: outs) ≠ [] := by
          rcases c2 with c2 | c2
          · exact .inl ⟨c2.1, c2.2.trans hln.symm⟩
          · refine .inr ⟨c2, ?_⟩
            rw [ofType_append]
            simp [ofType, hon, hln]
        have hwr : c.written B (done ++ o :: outs) =
            done ++ (o :: outs).take ((o :: outs).length - (o :: outs).length % B) := by
          unfold Stop.written
          rw [c1, if_pos rfl, lastBlock_eq hof (fun o' ho' => (c4 o' ho').1)]
          have hle : (o :: outs).length % B ≤ (o :: outs).length := Nat.mod_le _ _
          rw [List.length_append, Nat.add_sub_assoc hle, List.take_length_add_append]
        by_cases hn2 : r2.name = "HIERARCH"
        · obtain ⟨q1, st2, ho2, q2⟩ := hierarch_fails hp hs hin hcoreN henv' hitems ha hbad hn2
            (by
              cases hplc : pl with
              | low pre ft tp ix hpp hrec =>
                rw [hplc] at hallows
                exact absurd ((adds_name ha).trans hn2) (hallows o (by simp))
              | top pre ft =>
                rw [hplc] at hallows
                exact hallows o (by simp) ((adds_name ha).trans hn2) (adds_first ha)) hl hln B
            (fuel := fuel) (Nat.le_of_lt (by simp only [List.length_cons] at hfl'; omega)) sk
          obtain ⟨q3, q4⟩ := parseLoop_error (n := k') (hasTable_ne ht).1 g2
            ((generalParser_reader g3 (rd := .hierarch) (by rw [hn2]; rfl)).trans q1)
          refine ⟨q3, _, _, (q4.trans (generalLeft_reader g3 (rd := .hierarch)
            (by rw [hn2]; rfl))).trans q2, ?_⟩
          refine ho2.leaves hl hnames hfree hop hwr fun k t => ?_
          rw [hn2] at hbad
          rw [hbad.hier, typeOf_skip (by rw [hn2]; decide)]
          exact henv'.elem_iff k t
        have hd := hgiven hn2
        rw [hsel hd] at hcoreN
        obtain ⟨body, hbody, hbruns⟩ := means_run hm g1
        have hrd : readers r2.name =
            some (.block (if r2.name = "SCONMESH" then sconmeshCheck else noCheck) body) := by
          rcases hbody with h | ⟨h, _⟩
          · exact h
          · exact absurd h hn2
        obtain ⟨fuel', rfl⟩ : ∃ j, fuel = j + 1 := ⟨fuel - 1, by omega⟩
        obtain ⟨env1, o1, hrun1, he1⟩ := hbruns _ (henv'.regrid none) sk
        obtain ⟨m1, elem, m2, m3⟩ := loop_next (sk := sk) hbad g1 hbody hl hln B (fuel := fuel')
          (Nat.le_of_lt (by simpa using hfl')) hinv1 hbuf1 he1 (cr := Verif.Parse.done r2) o1 rfl rfl
        rw [List.nil_append, List.singleton_append] at m2
        obtain ⟨q1, st2, ho2, q2⟩ := blockReader_fails (sk := sk) (rest := rest2) hp hs hin
          hcoreN hitems hl hln g4 B (fuel' + 1) (body := body) (e := e) (elem := elem)
          (T := (contents l (done ++ (o :: outs).take
            ((o :: outs).length - (o :: outs).length % B))).table l) (fun _ => by
          constructor
          · simp only [loop]
            rw [if_pos trivial, Prog.run_bind_ok hrun1, Prog.run_bind_ok (Prog.run_lift_ok hw1)]
            exact m1
          · simp only [loopLeft]
            rw [if_pos trivial, hrun1]
            simp only [hw1]
            revert m2
            cases Prog.run (L.reader sk) header ⟨Verif.Parse.done r2, o1, rest2⟩ <;> exact id)
        obtain ⟨q3, q4⟩ := parseLoop_error (n := k') (hasTable_ne ht).1 g2
          ((generalParser_reader g3 hrd).trans q1)
        refine ⟨q3, _, _, (q4.trans (generalLeft_reader g3 hrd)).trans q2, ?_⟩
        exact ho2.leaves hl hnames hfree hop hwr m3
      · obtain ⟨r', rest', rfl, hr'⟩ := hblk.end
        have hnames : ∀ y ∈ o :: new, y.name = r2.name := by
          intro y hy
          simp only [List.mem_cons] at hy
          rcases hy with rfl | hy
          · exact adds_name ha
          · exact hblk.names y hy
        have hitems' : ItemsOK (done ++ o :: new) :=
          hitems.append ((adds_items ha).append hblk.items)
        have hsplit : done ++ o :: (new ++ outs') = (done ++ o :: new) ++ outs' := by simp
        rw [hsplit] at hgives hallows
        have hrd : ∃ rd, readers r2.name = some rd ∧ ∃ st',
            Prog.run (L.reader sk) (runReader B fuel rd
              { st1 with g := { st1.g with recordNames := st1.g.recordNames ++ [r2.name] } }
              (r2.name, r2.head)) ⟨r2, 0, rest2⟩ =
              .ok ((st', some (r'.name, r'.head)), ⟨r', 0, rest'⟩) ∧
            Core pl p h0 (done ++ o :: new) (some s) (hierOf (done ++ o :: new)) st' ∧
            EnvInv e0 past' st'.env := by
          by_cases hh : r2.name = "HIERARCH"
          · cases hplc : pl with
            | low pre ft tp ix hpp hrec =>
              rw [hplc] at hallows
              exact absurd ((adds_name ha).trans hh) (hallows o (by simp))
            | top pre ft =>
              have hsel : HasField o.cells 2 s := by
                rw [hplc] at hallows
                exact hallows o (by simp) ((adds_name ha).trans hh) (adds_first ha)
              obtain ⟨st', e1, e2, e3, e4⟩ := hierarch_run hplc hp hs hin hcoreN henv' hitems ha
                hblk hnew hh hsel B (fuel := fuel) (by simp only [List.length_cons] at hfl'; omega) sk
              refine ⟨.hierarch, by rw [hh]; rfl, st', e1, ?_, e3⟩
              rw [hierOf_append ((adds_name ha).trans hh), ← hplc]
              exact e2
          · have hd := hgiven hh
            rw [hsel hd] at hcoreN
            obtain ⟨rd, e0, st', e1, e2, e3, e4⟩ := block_run hp hs hin hcoreN henv' hitems ha
              hblk hnew g4 g1 hh B (fuel := fuel) (by simp at hfl'; omega) sk
            refine ⟨rd, e0, st', e1, ?_, e3⟩
            rw [hierOf_other hnames hh]
            exact e2
        obtain ⟨rd, hrd, st', e1, e2, e3⟩ := hrd
        have hsel' : selOf s (done ++ o :: new) = some s := by simp [selOf]
        rw [← hsel'] at e2
        have hlen' : (r' :: rest').length ≤ rest2.length := hlen
        simp only [List.length_cons] at hn' hfl' hlen' hk'
        obtain ⟨q1, q2⟩ := turns_ok (n := k') (hasTable_ne ht).1 g2
          ((generalParser_reader g3 hrd).trans e1)
        rw [q1, q2, hsplit]
        exact ih past' (r' :: rest') outs' e c hacc' (by simp only [List.length_cons]; omega)
          (by simp only [List.length_cons]; omega) k' (done ++ o :: new) st' r' rest' rfl
          (by simp only [List.length_cons]; omega) hgives hallows hfit hitems' e2 e3
    | @identEnds r2 o g1 g2 g3 ha =>
      simp only [List.cons.injEq] at hf'
      obtain ⟨rfl, rfl⟩ := hf'
      have hsel1 : done = [] → HasField o.cells 1 s := by
        rintro rfl
        obtain ⟨o', ho', hh'⟩ := hgives
        simp only [List.nil_append, List.head?_cons, Option.some.injEq] at ho'
        subst ho'
        rcases hh' with hh' | hh'
        · exact hh'.2
        · have := (adds_name ha).symm.trans hh'.1
          rw [g1] at this
          exact absurd this (by decide)
      obtain ⟨e1, st', e2, e3, e4⟩ := ident_fails (sk := sk) hp hs hin hcoreN henv' ha g1 hsel1 B fuel
      obtain ⟨q3, q4⟩ := parseLoop_error (n := k') (by rw [g1]; decide) g2
        ((generalParser_reader g3 (rd := .ident) (by rw [g1]; rfl)).trans e1)
      refine ⟨q3, st'.h5, st'.env.elem, (q4.trans (generalLeft_reader g3 (rd := .ident)
        (by rw [g1]; rfl))).trans e2, ?_⟩
      refine e3.leaves (by simp) hfree rfl rfl fun k t => ?_
      rw [typeOf_skip (show endMark.name ≠ _ by decide)]
      exact e4.elem_iff k t
    | @ident r2 rest2 o outs _ _ g1 g2 g3 ha hacc =>
      simp only [List.cons.injEq] at hf'
      obtain ⟨rfl, rfl⟩ := hf'
      obtain ⟨r', rest', rfl⟩ : ∃ a b, rest2 = a :: b := by
        generalize hcur : (none : Option String) = cur at hacc
        cases hacc <;> first | exact ⟨_, _, rfl⟩ | cases hcur
      have hitems' : ItemsOK (done ++ [o]) := hitems.append (adds_items ha)
      have hsel1 : done = [] → HasField o.cells 1 s := by
        rintro rfl
        obtain ⟨o', ho', hh'⟩ := hgives
        simp only [List.nil_append, List.head?_cons, Option.some.injEq] at ho'
        subst ho'
        rcases hh' with hh' | hh'
        · exact hh'.2
        · have := (adds_name ha).symm.trans hh'.1
          rw [g1] at this
          exact absurd this (by decide)
      obtain ⟨st', e1, e2, e3, e4⟩ := ident_run hp hs hin hcoreN henv' ha g1 hsel1 B fuel sk
      have hsplit : done ++ o :: outs = (done ++ [o]) ++ outs := by simp
      rw [hsplit] at hgives hallows
      have hhier : hierOf (done ++ [o]) = hierOf done :=
        hierOf_other (n := "IDENT") (by simpa using (adds_name ha).trans g1) (by decide)
      have hsel' : selOf s (done ++ [o]) = some s := by simp [selOf]
      rw [← hhier, ← hsel'] at e2
      simp only [List.length_cons] at hn' hfl' hk'
      obtain ⟨q1, q2⟩ := turns_ok (n := k') (by rw [g1]; decide) g2
        ((generalParser_reader g3 (rd := .ident) (by rw [g1]; rfl)).trans e1)
      rw [q1, q2, hsplit]
      exact ih (r2 :: past) (r' :: rest') outs e c hacc (by simp only [List.length_cons]; omega)
        (by simp only [List.length_cons]; omega) k' (done ++ [o]) st' r' rest' rfl
        (by simp only [List.length_cons]; omega) hgives hallows hfit hitems' e2 e3

end

end Verif.Parse
