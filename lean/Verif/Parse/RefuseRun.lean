import Verif.Seq.SimU
import Verif.Parse.RefuseSpec
import Verif.Parse.ParseRun
import Verif.Parse.Left
/-!
# Files that cannot be converted: the runs of the parser
-/

namespace Verif.Parse
open Verif Verif.Seq

/-! ### a program that fails on the logical reader fails on the readers simulating it -/

theorem L.reader_error {sk : LRec → Bool} {o : Op} {s : LState} {e : Err}
    (h : (L.reader sk).step o s = .error e) : e = .outOfFuel ∨
      e = .structError ∧ s.cur.pre = [] ∧ s.cur.vals = [] ∧ s.rest = [] ∧
        (o = .header ∨ ∃ x t, s.cur.head = x :: t ∧ s.cur.name.toList.take 2 ≠ ['T', 'D'] ∧
          o = .skip s.cur.name s.cur.head) := by
  have hnext : ∀ (s : LState) (e' e : Err), L.next e' s = .error e → e = e' ∧ s.rest = [] := by
    intro s e' e h
    unfold L.next at h
    split at h <;> cases h
    exact ⟨rfl, by assumption⟩
  cases o with
  | line m => simp only [L.reader] at h; split at h <;> cases h; exact .inl rfl
  | header =>
    simp only [L.reader] at h
    split at h
    · rename_i hd
      obtain ⟨h1, h2⟩ := hnext _ _ _ h
      exact .inr ⟨h1, hd.1, hd.2, h2, .inl rfl⟩
    · cases h; exact .inl rfl
  | floatrec k =>
    simp only [L.reader] at h
    split at h
    · split at h <;> cases h; exact .inl rfl
    · cases h; exact .inl rfl
  | floats n k =>
    simp only [L.reader] at h
    split at h
    · cases h
    · split at h
      · cases h
      · split at h <;> cases h; exact .inl rfl
  | skip name rec =>
    simp only [L.reader] at h
    split at h
    · rename_i hd
      obtain ⟨-, rfl, rfl, -⟩ := hd
      obtain ⟨h1, h2⟩ := hnext _ _ _ h
      by_cases hb : L.bare s.cur = true
      · rw [if_pos hb] at h1
        simp only [L.bare, Bool.and_eq_true, List.isEmpty_iff, Bool.not_eq_true', bne_iff_ne] at hb
        obtain ⟨⟨⟨b1, b2⟩, b3⟩, b4⟩ := hb
        obtain ⟨x, t, hx⟩ := List.exists_cons_of_ne_nil (l := s.cur.head) (by
          intro h; rw [h] at b3; simp at b3)
        exact .inr ⟨h1, b1, b2, h2, .inr ⟨x, t, hx, b4, rfl⟩⟩
      · rw [if_neg hb] at h1
        exact .inl h1
    · cases h; exact .inl rfl
  | atHeader =>
    simp only [L.reader] at h
    repeat' split at h
    all_goals first | (cases h; exact .inl rfl) | cases h

/-- the exception `e` of a call on the logical reader is also that of the reader `R` -/
def Tells {σ : Type} (R : Reader σ) (sk : LRec → Bool) (rel : σ → LState → Prop) (e : Err) : Prop :=
  ∀ o s t, rel s t → (L.reader sk).step o t = .error e → R.step o s = .error e

theorem tells_other {σ : Type} {R : Reader σ} {sk : LRec → Bool} {rel : σ → LState → Prop} {e : Err}
    (h1 : e ≠ .outOfFuel) (h2 : e ≠ .structError) : Tells R sk rel e := by
  intro o s t _ h
  rcases L.reader_error h with h | h
  · exact absurd h h1
  · exact absurd h.1 h2

/-- an unformatted file raises `struct.error` where it ends -/
theorem tells_unformatted (D : Dec) (sk : LRec → Bool) {e : Err} (h1 : e ≠ .outOfFuel) :
    Tells (U.reader D) sk (U.Rel D sk []) e := by
  intro o s t hr h
  rcases L.reader_error h with h | ⟨rfl, h2, h3, h4, h5⟩
  · exact absurd h h1
  · have := hr.rem_of_done h2 h3
    rw [h4] at this
    obtain ⟨rem, hasr, fr⟩ := s
    dsimp only at this
    have hrem : rem = [] := by
      generalize hg : ([] : List LRec) = g at this
      cases this with
      | nil => rfl
      | empty => cases hg
      | cut => cases hg
      | cons => cases hg
    subst hrem
    rcases h5 with rfl | ⟨x, t', hx, htd, rfl⟩
    · rfl
    · show skipRestofrecord (U.fileOps D) t.cur.name t.cur.head _ = _
      unfold skipRestofrecord
      rw [hx]
      simp only [pyIdx, List.getElem?_cons_zero, bind, Except.bind, if_neg htd]
      split
      · split <;> rfl
      · rfl

theorem run_sim_error {σ α : Type} {R : Reader σ} {sk : LRec → Bool} {rel : σ → LState → Prop}
    (h : Simulates R (L.reader sk) rel) (p : Prog α) {s : σ} {t : LState} {e : Err} (hr : rel s t)
    (he : Tells R sk rel e) (ht : Prog.run (L.reader sk) p t = .error e) :
    Prog.run R p s = .error e := by
  induction p generalizing s t with
  | ret a => cases ht
  | fail e' => cases ht; rfl
  | op o k ih =>
    simp only [Prog.run] at ht ⊢
    cases hs : (L.reader sk).step o t with
    | error e' =>
      rw [hs] at ht
      cases ht
      rw [he o s t hr hs]
    | ok p =>
      obtain ⟨r, t1⟩ := p
      rw [hs] at ht
      obtain ⟨s1, h1, hr1⟩ := h o s t r t1 hr hs
      rw [h1]
      exact ih r hr1 ht

/-! ### wrong records -/

/-- `p` on the record `c` raises `e` -/
def Raises {α : Type} (p : Prog α) (c : LRec) (e : Err) : Prop :=
  ∀ sk o rest, Prog.run (L.reader sk) p ⟨c, o, rest⟩ = .error e

theorem Raises.fail {α : Type} (c : LRec) (e : Err) : Raises (.fail e : Prog α) c e :=
  fun _ _ _ => rfl

theorem Raises.bind {α β : Type} {p : Prog α} {f : α → Prog β} {c c' : LRec} {a : α} {e : Err}
    (h : Reads p c a c') (h' : Raises (f a) c' e) : Raises (p.bind f) c e := by
  intro sk o rest
  obtain ⟨o1, h1⟩ := h sk o rest
  rw [Prog.run_bind_ok h1]
  exact h' sk o1 rest

theorem Raises.first {α β : Type} {p : Prog α} {f : α → Prog β} {c : LRec} {e : Err}
    (h : Raises p c e) : Raises (p.bind f) c e := fun sk o rest => Prog.run_bind_error (h sk o rest)

theorem Raises.look {γ δ : Type} {d : γ → Option δ} {k : γ} (h : d k = none) (c : LRec) :
    Raises (Parse.look d k) c .keyError := by
  unfold Parse.look; rw [h]; exact Raises.fail _ _

theorem elemNodes_none {ty : Int} (h : ∀ n, ¬ NodeCount ty n) : elemNodes ty = none := by
  have key : ∀ p ∈ [((15 : Int), 2), (16, 2), (18, 1), (23, 3), (24, 4), (25, 3), (26, 6),
      ((28 : Int), (8 : Nat))], ty ≠ p.1 := by
    rintro ⟨t, n⟩ hp rfl
    exact h n hp
  simp only [List.mem_cons, List.not_mem_nil, or_false, forall_eq_or_imp, forall_eq] at key
  obtain ⟨k1, k2, k3, k4, k5, k6, k7, k8⟩ := key
  simp [elemNodes, k1, k2, k3, k4, k5, k6, k7, k8]

/-- the types of the records in `Wrong` -/
def wrongNames : List String :=
  ["GELMNT1", "GELREF1", "SCONCEPT", "RVNODACC", "RVNODDIS", "RVNODVEL",
      "RVFORCES", "RVSTRAIN", "RVSTRESS", "RDIELCOR", "WSURFACE",
      "DATE", "TEXT", "TDMATER", "TDSECT", "TDSETNAM", "TDSUPNAM", "TSLAYER", "TDSCONC",
      "TDLOAD", "TDRESREF", "TDBODNAM", "TDRSNAM", "TDSCATTER", "BNBCD", "BLDEP", "RSUPTRAN",
      "HSUPTRAN", "RDFORCES", "RDNODRES", "RDSTRAIN", "RDSTRESS", "RDELNFOR", "RBLODCMB",
      "RDRESCMB", "WBODCON", "WDRESREF", "WGLOBDEF", "W1EXFORC", "W1MOTION", "W2EXFDIF",
      "W2EXFSUM", "WFLUIDKN", "GSETMEMB", "RDPOINTS", "RDRESREF", "W1SFORCE"]

theorem mem_wrongNames {L : List String} {n : String} (h1 : n ∈ L)
    (h2 : (L.all fun x => wrongNames.contains x) = true) : n ∈ wrongNames := by
  simpa using List.all_eq_true.mp h2 n h1

theorem FirstInt.names {name : String} {i : Nat} (h : FirstInt name i) : name ∈ wrongNames := by
  cases h with
  | text h => exact mem_wrongNames h (by decide +kernel)
  | td h => exact mem_wrongNames h (by decide +kernel)
  | transformation h => exact mem_wrongNames h (by decide +kernel)
  | components h => exact mem_wrongNames h (by decide +kernel)
  | triples h => exact mem_wrongNames h (by decide +kernel)
  | six h => exact mem_wrongNames h (by decide +kernel)
  | _ => decide +kernel

theorem SecondInt.names {name : String} {i j : Nat} (h : SecondInt name i j) :
    name ∈ wrongNames := by
  cases h with
  | td h => exact mem_wrongNames h (by decide +kernel)
  | transformation h => exact mem_wrongNames h (by decide +kernel)
  | components h => exact mem_wrongNames h (by decide +kernel)
  | _ => decide +kernel

theorem MoreInt.names {name : String} {k i : Nat} (h : MoreInt name k i) : name ∈ wrongNames := by
  cases h with
  | node h => exact mem_wrongNames h (by decide +kernel)
  | element h => exact mem_wrongNames h (by decide +kernel)
  | _ => decide +kernel

theorem MoreInt2.names {name : String} {k i j : Nat} (h : MoreInt2 name k i j) :
    name ∈ wrongNames := by
  cases h with
  | node h => exact mem_wrongNames h (by decide +kernel)
  | element h => exact mem_wrongNames h (by decide +kernel)
  | _ => decide +kernel

theorem wrong_names {e0 : Int → Option Int} {past : List LRec} {b : Bool} {r : LRec} {e : Err}
    (h : Wrong e0 past b r e) : HasTable r.name ∧ r.name ≠ "IDENT" ∧
      (b = true → r.name ≠ "HIERARCH") ∧ r.name ≠ "SCONMESH" ∧ e ≠ .outOfFuel := by
  have key : ∀ n ∈ wrongNames,
      n ∈ layouts.map (·.name) ∧ n ≠ "IDENT" ∧ n ≠ "HIERARCH" ∧ n ≠ "SCONMESH" := by
    decide +kernel
  have hn : r.name ∈ wrongNames ∨ b = false ∧ r.name = "HIERARCH" := by
    cases h with
    | noCase h => exact .inl (mem_wrongNames h (by decide +kernel))
    | badCase h => exact .inl (mem_wrongNames h (by decide +kernel))
    | noDeclaration h => exact .inl (mem_wrongNames h (by decide +kernel))
    | notInt h => exact .inl h.names
    | notInt2 h => exact .inl h.names
    | notIntMore h => exact .inl h.names
    | notIntMore2 h => exact .inl h.names
    | notIntSub => exact .inr ⟨rfl, rfl⟩
    | _ => exact .inl (by dsimp only; decide +kernel)
  have hk : HasTable r.name ∧ r.name ≠ "IDENT" ∧ (b = true → r.name ≠ "HIERARCH") ∧
      r.name ≠ "SCONMESH" := by
    rcases hn with hn | ⟨rfl, hn⟩
    · obtain ⟨k1, k2, k3, k4⟩ := key _ hn
      exact ⟨hasTable_iff.mpr k1, k2, fun _ => k3, k4⟩
    · rw [hn]
      exact ⟨hasTable_iff.mpr (by decide +kernel), by decide, by simp, by decide⟩
  refine ⟨hk.1, hk.2.1, hk.2.2.1, hk.2.2.2, ?_⟩
  cases h with
  | notInt _ h => cases h <;> simp
  | notInt2 _ _ _ h => cases h <;> simp
  | notIntMore _ h => cases h <;> simp
  | notIntMore2 _ _ _ h => cases h <;> simp
  | notIntRef h => cases h <;> simp
  | notIntSub h => cases h <;> simp
  | _ => simp

theorem Raises.intAt {l : List PyF} {i : Nat} {e : Err} (h : NoInt l i e) (c : LRec) :
    Raises (Parse.intAt l i) c e := by
  intro sk o rest
  cases h with
  | missing h =>
    have : pyIdx l i = .error .indexError := by
      unfold pyIdx
      rw [List.getElem?_eq_none h]
    simp [Parse.intAt, Parse.idx, this, Prog.lift, Prog.bind]
  | nan h =>
    simp [Parse.intAt, Parse.idx, pyIdx_ok.mpr h, Prog.lift, Prog.bind, Parse.int, PyF.toInt]
  | inf b h =>
    simp [Parse.intAt, Parse.idx, pyIdx_ok.mpr h, Prog.lift, Prog.bind, Parse.int, PyF.toInt]

set_option maxRecDepth 10000 in
theorem firstInt_run {name : String} {i : Nat} (h : FirstInt name i) {head : List PyF} {e : Err}
    (hn : NoInt head i e) (c : LRec) :
    ∃ body, BodyFor name body ∧ ∀ env, Raises (body name env head) c e := by
  have ok {α : Type} {f : Int → Prog α} : Raises (Prog.bind (intAt head i) f) c e :=
    Raises.first (Raises.intAt hn c)
  cases h with
  | text h => exact ⟨textBody, by each_name h => exact Or.inl rfl, fun _ => ok⟩
  | td h => exact ⟨tdBody, by each_name h => exact Or.inl rfl, fun _ => ok⟩
  | element => exact ⟨gelmnt1Body, .inl rfl, fun _ => ok⟩
  | concept => exact ⟨sconceptBody, .inl rfl, fun _ => ok⟩
  | boundary => exact ⟨bnbcdBody, .inl rfl, fun _ => ok⟩
  | dependence => exact ⟨bldepBody, .inl rfl, fun _ => ok⟩
  | transformation h => exact ⟨xsuptranBody, by each_name h => exact Or.inl rfl, fun _ => ok⟩
  | components h => exact ⟨compdefBody, by each_name h => exact Or.inl rfl, fun _ => ok⟩
  | points => exact ⟨rdielcorBody, .inl rfl, fun _ => ok⟩
  | triples h => exact ⟨triplesBody, by each_name h => exact Or.inl rfl, fun _ => ok⟩
  | waves => exact ⟨wdresrefBody, .inl rfl, fun _ => ok⟩
  | site => exact ⟨wglobdefBody, .inl rfl, fun _ => ok⟩
  | six h => exact ⟨wcommonBody, by each_name h => exact Or.inl rfl, fun _ => ok⟩
  | fluid => exact ⟨wfluidknBody, .inl rfl, fun _ => ok⟩

set_option maxRecDepth 10000 in
theorem secondInt_run {name : String} {i j : Nat} (h : SecondInt name i j) {head : List PyF}
    {e : Err} {x : PyF} {n : Int} (hx : head[i]? = some x) (hi : HasInt x n) (hn : NoInt head j e)
    (c : LRec) : ∃ body, BodyFor name body ∧ ∀ env, Raises (body name env head) c e := by
  have ok {α : Type} {f : Int → Int → Prog α} :
      Raises (Prog.bind (intAt head i) fun a => Prog.bind (intAt head j) (f a)) c e :=
    Raises.bind (Reads.intAt hx hi c) (Raises.first (Raises.intAt hn c))
  cases h with
  | td h => exact ⟨tdBody, by each_name h => exact Or.inl rfl, fun _ => ok⟩
  | element => exact ⟨gelmnt1Body, .inl rfl, fun _ => ok⟩
  | transformation h => exact ⟨xsuptranBody, by each_name h => exact Or.inl rfl, fun _ => ok⟩
  | components h => exact ⟨compdefBody, by each_name h => exact Or.inl rfl, fun _ => ok⟩

set_option maxRecDepth 10000 in
theorem moreInt_run {name : String} {i : Nat} {head a b pad : List PyF} (h : MoreInt name a.length i)
    {e : Err} (hn : NoInt (head ++ a) i e) :
    ∃ body, BodyFor name body ∧
      ∀ env, Raises (body name env head) ⟨name, head, [], 0, a ++ b, pad⟩ e := by
  have ok {α : Type} {f : List PyF → Int → Prog α} {k : Int} (hk : k = a.length) :
      Raises (Prog.bind (Seq.floats k) fun more => Prog.bind (intAt (head ++ more) i) (f more))
        ⟨name, head, [], 0, a ++ b, pad⟩ e :=
    Raises.bind (Reads.floats hk (fun _ => rfl)) (Raises.first (Raises.intAt hn _))
  generalize hl : a.length = k at h ok
  cases h with
  | set => exact ⟨gsetmembBody, .inl rfl, fun _ => ok rfl⟩
  | node h => exact ⟨rvnodresBody, by each_name h => exact Or.inl rfl, fun _ => ok rfl⟩
  | element h => exact ⟨rvelmresBody, by each_name h => exact Or.inl rfl, fun _ => ok rfl⟩
  | points => exact ⟨rdpointsBody, .inl rfl, fun _ => ok rfl⟩
  | result => exact ⟨rdresrefBody, .inl rfl, fun _ => ok rfl⟩
  | force => exact ⟨w1sforceBody, .inl rfl, fun _ => ok rfl⟩
  | surface => exact ⟨wsurfaceBody, .inl rfl, fun _ => ok rfl⟩

set_option maxRecDepth 10000 in
theorem moreInt2_run {name : String} {i j : Nat} {head a b pad : List PyF}
    (h : MoreInt2 name a.length i j) {e : Err} {x : PyF} {n : Int} (hx : (head ++ a)[i]? = some x)
    (hi : HasInt x n) (hn : NoInt (head ++ a) j e) :
    ∃ body, BodyFor name body ∧
      ∀ env, Raises (body name env head) ⟨name, head, [], 0, a ++ b, pad⟩ e := by
  have ok {α : Type} {f : List PyF → Int → Int → Prog α} {k : Int} (hk : k = a.length) :
      Raises (Prog.bind (Seq.floats k) fun more => Prog.bind (intAt (head ++ more) i) fun u =>
        Prog.bind (intAt (head ++ more) j) (f more u)) ⟨name, head, [], 0, a ++ b, pad⟩ e :=
    Raises.bind (Reads.floats hk (fun _ => rfl)) (Raises.bind (Reads.intAt hx hi _)
      (Raises.first (Raises.intAt hn _)))
  generalize hl : a.length = k at h ok
  cases h with
  | node h => exact ⟨rvnodresBody, by each_name h => exact Or.inl rfl, fun _ => ok rfl⟩
  | element h => exact ⟨rvelmresBody, by each_name h => exact Or.inl rfl, fun _ => ok rfl⟩
  | points => exact ⟨rdpointsBody, .inl rfl, fun _ => ok rfl⟩
  | result => exact ⟨rdresrefBody, .inl rfl, fun _ => ok rfl⟩

set_option maxRecDepth 10000 in
theorem wrong_run {e0 : Int → Option Int} {past : List LRec} {first : Bool} {r : LRec} {e : Err}
    (h : Wrong e0 past first r e) : ∃ body, BodyFor r.name body ∧
      ∀ env, EnvInv e0 past env → (first = true → env.grid = none) →
        Raises (body r.name env r.head) r e := by
  cases h with
  | @notIntSub head a b c d vals pad _ h1 =>
    refine ⟨hierarchBody, .inr ⟨rfl, rfl⟩, fun env _ _ => ?_⟩
    exact Raises.bind (Reads.floats (a := [a, b, c, d]) (b := vals) rfl (fun _ => rfl))
      (Raises.first (Raises.first (Raises.intAt h1 _)))
  | elementType h1 h2 h3 =>
    refine ⟨gelmnt1Body, .inl rfl, fun env _ _ => ?_⟩
    exact Raises.bind (Reads.intAt rfl h2 _) (Raises.bind (Reads.intAt rfl h1 _)
      (Raises.first (Raises.look (elemNodes_none h3) _)))
  | noElement h1 h2 h3 =>
    refine ⟨gelref1Body, .inl rfl, fun env hi _ => ?_⟩
    exact Raises.bind Reads.floatrec (Raises.bind Reads.floatrec (Raises.bind (Reads.intAt rfl h1 _)
      (Raises.first (Raises.look (hi.elemNone _ h2 h3) _))))
  | @concept _ a b c d e t vals pad h1 h2 h3 =>
    refine ⟨sconceptBody, .inl rfl, fun env _ _ => ?_⟩
    refine Raises.bind (Reads.intAt rfl h1 _)
      (Raises.bind (Reads.floats (a := [e]) (b := vals) rfl (fun _ => rfl)) ?_)
    simp only
    rw [if_neg h2, if_neg h3]
    exact Raises.fail _ _
  | @noCase _ name a b c d e n i vals pad h1 h2 h3 h4 =>
    have hb : BodyFor name rvnodresBody := by each_name h1 => exact Or.inl rfl
    refine ⟨_, hb, fun env hi _ => ?_⟩
    refine Raises.bind (Reads.floats (a := [e]) (b := vals) rfl (fun _ => rfl)) ?_
    exact Raises.bind (Reads.intAt rfl h2 _) (Raises.bind (Reads.intAt rfl h3 _)
      (Raises.first (Raises.look (hi.cplxNone _ h4) _)))
  | @badCase _ name a b c d e n i vals pad h1 h2 h3 h4 =>
    have hb : BodyFor name rvnodresBody := by each_name h1 => exact Or.inl rfl
    refine ⟨_, hb, fun env hi _ => ?_⟩
    refine Raises.bind (Reads.floats (a := [e]) (b := vals) rfl (fun _ => rfl)) ?_
    refine Raises.bind (Reads.intAt rfl h2 _) (Raises.bind (Reads.intAt rfl h3 _)
      (Raises.bind (Reads.look (hi.cplx _ _ h4) _) ?_))
    rw [if_pos (by decide)]
    exact Raises.fail _ _
  | @noDeclaration _ name a b c d e i j k l vals pad h1 h2 h3 h4 h5 h6 =>
    have hb : BodyFor name rvelmresBody := by each_name h1 => exact Or.inl rfl
    refine ⟨_, hb, fun env hi _ => ?_⟩
    refine Raises.bind (Reads.floats (a := [e]) (b := vals) rfl (fun _ => rfl)) ?_
    refine Raises.bind (Reads.intAt rfl h2 _) (Raises.bind (Reads.intAt rfl h3 _)
      (Raises.bind (Reads.intAt rfl h4 _) (Raises.bind (Reads.intAt rfl h5 _) ?_)))
    cases e1 : env.nsp (k, j) with
    | none => exact Raises.first (Raises.look e1 _)
    | some v1 =>
      refine Raises.bind (Reads.look e1 _) ?_
      cases e2 : env.lenrec (name, l) with
      | none => exact Raises.first (Raises.look e2 _)
      | some v2 =>
        refine Raises.bind (Reads.look e2 _) ?_
        cases e3 : env.rdresref i with
        | none => exact Raises.first (Raises.look e3 _)
        | some v3 =>
          exfalso
          rcases h6 with h6 | h6 | h6
          · rw [hi.nspNone _ _ h6] at e1; cases e1
          · rw [hi.lenNone _ h1 _ h6] at e2; cases e2
          · rw [hi.cplxNone _ h6] at e3; cases e3
  | @noGrid a b c d i pre sk vals pad h1 h2 h3 h4 =>
    refine ⟨rdielcorBody, .inl rfl, fun env hi hg => ?_⟩
    refine Raises.bind (Reads.intAt rfl h1 _) ?_
    have : rdielcorGrid env i = none := by
      unfold rdielcorGrid
      rw [hi.noGrid _ h2]
      simp [h3, h4, hg rfl]
    simp only [this]
    exact Raises.fail _ _
  | @noValues _ a b c d e x y z vals pad ec xc yc zc h1 h2 h3 h4 h5 h6 =>
    refine ⟨wsurfaceBody, .inl rfl, fun env _ _ => ?_⟩
    refine Raises.bind (Reads.floats (a := [e, x, y, z]) (b := vals) rfl (fun _ => rfl)) ?_
    refine Raises.bind (Reads.intAt rfl h1 _) ?_
    refine Raises.bind (Reads.idx rfl _) (Raises.bind (Reads.idx rfl _)
      (Raises.bind (Reads.idx rfl _) ?_))
    have hs : HasInt ((x.add y).add z) (xc + yc + zc) := by
      rw [h3, h4, h5]
      simp only [PyF.add]
      rw [← Rat.intCast_add, ← Rat.intCast_add]
      exact hasInt_int _
    refine Raises.bind (Reads.int hs _) (Raises.bind (Reads.idx rfl _) ?_)
    have he : HasInt e ec := by rw [h2]; exact hasInt_int _
    refine Raises.bind (Reads.int he _) (Raises.bind (Reads.floatsAll (a := vals) (by omega)
      (fun _ => rfl)) ?_)
    rw [if_pos h6]
    exact Raises.fail _ _
  | notInt h1 h2 =>
    obtain ⟨body, hb, hr⟩ := firstInt_run h1 h2 _
    exact ⟨body, hb, fun env _ _ => hr env⟩
  | notInt2 h1 h2 h3 h4 =>
    obtain ⟨body, hb, hr⟩ := secondInt_run h1 h2 h3 h4 _
    exact ⟨body, hb, fun env _ _ => hr env⟩
  | notIntMore h1 h2 =>
    obtain ⟨body, hb, hr⟩ := moreInt_run h1 h2
    exact ⟨body, hb, fun env _ _ => hr env⟩
  | notIntMore2 h1 h2 h3 h4 =>
    obtain ⟨body, hb, hr⟩ := moreInt2_run h1 h2 h3 h4
    exact ⟨body, hb, fun env _ _ => hr env⟩
  | notIntRef h1 =>
    exact ⟨gelref1Body, .inl rfl, fun env _ _ => Raises.bind Reads.floatrec
      (Raises.bind Reads.floatrec (Raises.first (Raises.intAt h1 _)))⟩

/-! ### records that are passed over -/

/-- a run of records that are passed over; it ends in front of a selected record -/
inductive PassesTo (only : Option (List String)) (sk : LRec → Bool) :
    Option String → List LRec → List LRec → Prop
  | done {cur r rest} : cur ≠ some r.name → Selected only r.name →
      PassesTo only sk cur (r :: rest) (r :: rest)
  | step {cur cur' r rest f'} : Passed only sk cur r cur' → PassesTo only sk cur' rest f' →
      PassesTo only sk cur (r :: rest) f'

section
variable {only : Option (List String)} {sk : LRec → Bool}

theorem PassesTo.nonempty {cur : Option String} {f f' : List LRec}
    (h : PassesTo only sk cur f f') : ∃ r rest, f = r :: rest := by
  cases h <;> exact ⟨_, _, rfl⟩

theorem PassesTo.end {cur : Option String} {f f' : List LRec}
    (h : PassesTo only sk cur f f') : ∃ r rest, f' = r :: rest ∧ Selected only r.name := by
  induction h with
  | done _ h => exact ⟨_, _, rfl, h⟩
  | step _ _ ih => exact ih

theorem PassesTo.length {cur : Option String} {f f' : List LRec}
    (h : PassesTo only sk cur f f') : f'.length ≤ f.length := by
  induction h with
  | done => exact Nat.le_refl _
  | step _ _ ih => simp; omega

/-- a record of another type does not depend on the run in progress -/
theorem Passed.other {nm : String} {r : LRec} {cur' : Option String}
    (h : Passed only sk (some nm) r cur') (hn : r.name ≠ nm) : Passed only sk none r cur' := by
  generalize hc : some nm = cur at h
  cases h with
  | void _ h2 h3 h4 => exact .void (by simp) h2 h3 h4
  | unselected _ h2 h3 h4 => exact .unselected (by simp) h2 h3 h4
  | unread _ h2 h3 h4 h5 h6 h7 h8 => exact .unread (by simp) h2 h3 h4 h5 h6 h7 h8
  | unreadMore => simp only [Option.some.injEq] at hc; exact absurd hc.symm hn
  | recsize h1 h2 h3 => exact .recsize h1 h2 h3
  | notEnd h1 h2 => exact .notEnd h1 h2

theorem PassesTo.other {nm : String} {r : LRec} {rest f' : List LRec}
    (h : PassesTo only sk (some nm) (r :: rest) f') (hn : r.name ≠ nm) :
    PassesTo only sk none (r :: rest) f' := by
  generalize hf : r :: rest = f at h
  cases h with
  | done h1 h2 => exact .done (by simp) h2
  | step h1 h2 => 
    simp only [List.cons.injEq] at hf
    obtain ⟨rfl, rfl⟩ := hf
    exact .step (h1.other hn) h2

theorem run_skip {r r1 : LRec} {rest : List LRec} (h : sk r = true) :
    Prog.run (L.reader sk) (skipRest r.name r.head) ⟨r, 0, r1 :: rest⟩ =
      .ok ((r1.name, r1.head), ⟨r1, 0, rest⟩) := by
  rw [skipRest, Prog.run_call]
  simp [L.reader, L.next, h]

/-- a run of records that are not selected -/
theorem PassesTo.unsel {nm : String} (hnm : ¬ Selected only nm) {f f' : List LRec}
    (h : PassesTo only sk none f f') (fuel : Nat) (hfuel : f.length ≤ fuel) :
    ∃ r rest r1 rest1, f = r :: rest ∧ (r1 :: rest1).length ≤ f.length ∧
      Prog.run (L.reader sk) (skipLoop nm fuel (r.name, r.head)) ⟨r, 0, rest⟩ =
        .ok ((r1.name, r1.head), ⟨r1, 0, rest1⟩) ∧ PassesTo only sk none (r1 :: rest1) f' := by
  induction fuel generalizing f with
  | zero =>
    obtain ⟨r, rest, rfl⟩ := h.nonempty
    simp at hfuel
  | succ fuel ih =>
    obtain ⟨r, rest, rfl⟩ := h.nonempty
    by_cases hn : r.name = nm
    · have hun : sk r = true ∧ PassesTo only sk none rest f' := by
        cases h with
        | done _ h => rw [hn] at h; exact absurd h hnm
        | step h1 h2 =>
          cases h1 with
          | void _ _ h => rw [hn] at h; exact absurd h hnm
          | unselected _ _ _ h => exact ⟨h, h2⟩
          | unread _ _ _ _ _ _ h => rw [hn] at h; exact absurd h hnm
          | recsize h => rw [hn] at h; exact absurd h hnm
          | notEnd h => rw [hn] at h; exact absurd h hnm
      obtain ⟨r0, rest0, r1, rest1, rfl, e2, e3, e4⟩ := ih hun.2 (by simpa using hfuel)
      refine ⟨r, r0 :: rest0, r1, rest1, rfl, by simp at e2 ⊢; omega, ?_, e4⟩
      simp only [skipLoop]
      rw [if_pos hn, Prog.run_bind_ok (run_skip hun.1)]
      exact e3
    · refine ⟨r, rest, r, rest, rfl, Nat.le_refl _, ?_, h⟩
      simp only [skipLoop]
      rw [if_neg hn]
      rfl

/-- a run of records of a type that is not read -/
theorem PassesTo.unread {nm : String} (hnm : ¬ HasTable nm) (hn1 : nm ≠ "IEND")
    (hn2 : nm ≠ "IRECSIZE") {f f' : List LRec}
    (h : PassesTo only sk (some nm) f f') (fuel : Nat) (hfuel : f.length ≤ fuel) :
    ∃ r rest r1 rest1, f = r :: rest ∧ (r1 :: rest1).length ≤ f.length ∧
      Prog.run (L.reader sk) (skipLoop nm fuel (r.name, r.head)) ⟨r, 0, rest⟩ =
        .ok ((r1.name, r1.head), ⟨r1, 0, rest1⟩) ∧ PassesTo only sk none (r1 :: rest1) f' := by
  induction fuel generalizing f with
  | zero =>
    obtain ⟨r, rest, rfl⟩ := h.nonempty
    simp at hfuel
  | succ fuel ih =>
    obtain ⟨r, rest, rfl⟩ := h.nonempty
    by_cases hn : r.name = nm
    · have hun : sk r = true ∧ PassesTo only sk (some nm) rest f' := by
        subst hn
        generalize hf : r :: rest = f0 at h
        generalize hc : some r.name = cur at h
        cases h with
        | done h _ =>
          simp only [List.cons.injEq] at hf
          obtain ⟨rfl, rfl⟩ := hf
          exact absurd hc.symm h
        | step h1 h2 =>
          simp only [List.cons.injEq] at hf
          obtain ⟨rfl, rfl⟩ := hf
          cases h1 with
          | void h => exact absurd hc.symm h
          | unselected h => exact absurd hc.symm h
          | unread h => exact absurd hc.symm h
          | unreadMore _ _ _ _ h => exact ⟨h, h2⟩
          | recsize _ h => exact absurd h.1 hn2
          | notEnd _ h => exact absurd h.1 hn1
      obtain ⟨r0, rest0, r1, rest1, rfl, e2, e3, e4⟩ := ih hun.2 (by simpa using hfuel)
      refine ⟨r, r0 :: rest0, r1, rest1, rfl, by simp at e2 ⊢; omega, ?_, e4⟩
      simp only [skipLoop]
      rw [if_pos hn, Prog.run_bind_ok (run_skip hun.1)]
      exact e3
    · refine ⟨r, rest, r, rest, rfl, Nat.le_refl _, ?_, h.other hn⟩
      simp only [skipLoop]
      rw [if_neg hn]
      rfl

/-! ### records that are passed over up to the end of the file -/

/-- a run of records that are passed over; the file ends behind them -/
inductive PassesOut (only : Option (List String)) (sk : LRec → Bool) :
    Option String → List LRec → Prop
  | last {cur cur' r} : Passed only sk cur r cur' →
      HeaderOnly r ∨ cur ≠ some r.name ∧ Selected only r.name ∧ Void r →
      PassesOut only sk cur [r]
  | step {cur cur' r rest} : Passed only sk cur r cur' → PassesOut only sk cur' rest →
      PassesOut only sk cur (r :: rest)

theorem PassesOut.nonempty {cur : Option String} {f : List LRec}
    (h : PassesOut only sk cur f) : ∃ r rest, f = r :: rest := by
  cases h <;> exact ⟨_, _, rfl⟩

theorem PassesOut.other {nm : String} {r : LRec} {rest : List LRec}
    (h : PassesOut only sk (some nm) (r :: rest)) (hn : r.name ≠ nm) :
    PassesOut only sk none (r :: rest) := by
  generalize hf : r :: rest = f at h
  cases h with
  | last h1 h2 =>
    simp only [List.cons.injEq] at hf
    obtain ⟨rfl, rfl⟩ := hf
    exact .last (h1.other hn) (h2.imp id fun h => ⟨by simp, h.2⟩)
  | step h1 h2 =>
    simp only [List.cons.injEq] at hf
    obtain ⟨rfl, rfl⟩ := hf
    exact .step (h1.other hn) h2

theorem run_skip_ends {r : LRec} (h : sk r = true) (hr : HeaderOnly r) :
    Prog.run (L.reader sk) (skipRest r.name r.head) ⟨r, 0, []⟩ = .error .structError := by
  have hb : L.bare r = true := by
    obtain ⟨h1, h2, h3, h4⟩ := hr
    simp only [L.bare, Bool.and_eq_true, List.isEmpty_iff, Bool.not_eq_true', bne_iff_ne,
      List.isEmpty_eq_false_iff]
    refine ⟨⟨⟨h1, h2⟩, h3⟩, fun h => h4 ?_⟩
    unfold isTD
    revert h
    generalize r.name.toList = l
    intro h
    match l, h with
    | a :: b :: l', h =>
      simp only [List.take_succ_cons, List.take_zero, List.cons.injEq, and_true] at h
      exact ⟨l', by rw [h.1, h.2]⟩
  rw [skipRest, Prog.run_call]
  simp [L.reader, L.next, h, hb]

/-- a loop over records of one type, passed over: it is left behind them, or the file ends -/
def LoopOut (only : Option (List String)) (sk : LRec → Bool) (nm : String) (fuel : Nat)
    (f : List LRec) : Prop :=
  ∃ r rest, f = r :: rest ∧
    ((∃ r1 rest1, (r1 :: rest1).length ≤ f.length ∧
      Prog.run (L.reader sk) (skipLoop nm fuel (r.name, r.head)) ⟨r, 0, rest⟩ =
        .ok ((r1.name, r1.head), ⟨r1, 0, rest1⟩) ∧ PassesOut only sk none (r1 :: rest1)) ∨
    Prog.run (L.reader sk) (skipLoop nm fuel (r.name, r.head)) ⟨r, 0, rest⟩ = .error .structError)

theorem LoopOut.step {nm : String} {fuel : Nat} {r : LRec} {rest : List LRec} (hn : r.name = nm)
    (hsk : sk r = true) (h : LoopOut only sk nm fuel rest) :
    LoopOut only sk nm (fuel + 1) (r :: rest) := by
  obtain ⟨r0, rest0, rfl, h⟩ := h
  refine ⟨r, r0 :: rest0, rfl, ?_⟩
  simp only [skipLoop]
  rw [if_pos hn, Prog.run_bind_ok (run_skip hsk)]
  refine h.imp ?_ id
  rintro ⟨r1, rest1, e1, e2, e3⟩
  exact ⟨r1, rest1, by simp only [List.length_cons] at e1 ⊢; omega, e2, e3⟩

theorem LoopOut.last {nm : String} {fuel : Nat} {r : LRec} (hn : r.name = nm)
    (hsk : sk r = true) (h : HeaderOnly r) : LoopOut only sk nm (fuel + 1) [r] := by
  refine ⟨r, [], rfl, .inr ?_⟩
  simp only [skipLoop]
  rw [if_pos hn]
  exact Prog.run_bind_error (run_skip_ends hsk h)

theorem LoopOut.leave {nm : String} {fuel : Nat} {r : LRec} {rest : List LRec} (hn : r.name ≠ nm)
    (h : PassesOut only sk none (r :: rest)) : LoopOut only sk nm (fuel + 1) (r :: rest) := by
  refine ⟨r, rest, rfl, .inl ⟨r, rest, Nat.le_refl _, ?_, h⟩⟩
  simp only [skipLoop]
  rw [if_neg hn]
  rfl

/-- what is left of a run behind a record that is not selected -/
theorem PassesOut.after_unselected {r : LRec} {rest : List LRec} (hn : ¬ Selected only r.name)
    (h : PassesOut only sk none (r :: rest)) :
    sk r = true ∧ (rest = [] ∧ HeaderOnly r ∨ PassesOut only sk none rest) := by
  have key : ∀ {cur'}, Passed only sk none r cur' → sk r = true ∧ cur' = none := by
    intro cur' h1
    cases h1 with
    | void _ _ h => exact absurd h hn
    | unselected _ _ _ h => exact ⟨h, rfl⟩
    | unread _ _ _ _ _ _ h => exact absurd h hn
    | recsize h => exact absurd h hn
    | notEnd h => exact absurd h hn
  generalize hf : r :: rest = f at h
  cases h with
  | last h1 h2 =>
    simp only [List.cons.injEq] at hf
    obtain ⟨rfl, rfl⟩ := hf
    refine ⟨(key h1).1, .inl ⟨rfl, ?_⟩⟩
    rcases h2 with h2 | h2
    · exact h2
    · exact absurd h2.2.1 hn
  | step h1 h2 =>
    simp only [List.cons.injEq] at hf
    obtain ⟨rfl, rfl⟩ := hf
    obtain ⟨k1, rfl⟩ := key h1
    exact ⟨k1, .inr h2⟩

theorem PassesOut.unsel {nm : String} (hnm : ¬ Selected only nm) {f : List LRec}
    (h : PassesOut only sk none f) (fuel : Nat) (hfuel : f.length ≤ fuel) :
    LoopOut only sk nm fuel f := by
  induction fuel generalizing f with
  | zero =>
    obtain ⟨r, rest, rfl⟩ := h.nonempty
    simp at hfuel
  | succ fuel ih =>
    obtain ⟨r, rest, rfl⟩ := h.nonempty
    by_cases hn : r.name = nm
    · obtain ⟨k1, ⟨rfl, k2⟩ | k2⟩ := h.after_unselected (by rw [hn]; exact hnm)
      · exact .last hn k1 k2
      · exact .step hn k1 (ih k2 (by simpa using hfuel))
    · exact .leave hn h

theorem PassesOut.after_unread {r : LRec} {rest : List LRec} (hn1 : r.name ≠ "IEND")
    (hn2 : r.name ≠ "IRECSIZE") (h : PassesOut only sk (some r.name) (r :: rest)) :
    sk r = true ∧ (rest = [] ∧ HeaderOnly r ∨ PassesOut only sk (some r.name) rest) := by
  have key : ∀ {cur'}, Passed only sk (some r.name) r cur' → sk r = true ∧ cur' = some r.name := by
    intro cur' h1
    generalize hc : some r.name = cur at h1
    cases h1 with
    | void h => exact absurd hc.symm h
    | unselected h => exact absurd hc.symm h
    | unread h => exact absurd hc.symm h
    | unreadMore _ _ _ _ h => exact ⟨h, rfl⟩
    | recsize _ h => exact absurd h.1 hn2
    | notEnd _ h => exact absurd h.1 hn1
  generalize hf : r :: rest = f at h
  generalize hc : some r.name = cur at h
  cases h with
  | last h1 h2 =>
    subst hc
    simp only [List.cons.injEq] at hf
    obtain ⟨rfl, rfl⟩ := hf
    refine ⟨(key h1).1, .inl ⟨rfl, ?_⟩⟩
    rcases h2 with h2 | h2
    · exact h2
    · exact absurd rfl h2.1
  | step h1 h2 =>
    subst hc
    simp only [List.cons.injEq] at hf
    obtain ⟨rfl, rfl⟩ := hf
    obtain ⟨k1, rfl⟩ := key h1
    exact ⟨k1, .inr h2⟩

theorem PassesOut.unread {nm : String} (hn1 : nm ≠ "IEND") (hn2 : nm ≠ "IRECSIZE")
    {f : List LRec} (h : PassesOut only sk (some nm) f) (fuel : Nat) (hfuel : f.length ≤ fuel) :
    LoopOut only sk nm fuel f := by
  induction fuel generalizing f with
  | zero =>
    obtain ⟨r, rest, rfl⟩ := h.nonempty
    simp at hfuel
  | succ fuel ih =>
    obtain ⟨r, rest, rfl⟩ := h.nonempty
    by_cases hn : r.name = nm
    · subst hn
      obtain ⟨k1, ⟨rfl, k2⟩ | k2⟩ := h.after_unread hn1 hn2
      · exact .last rfl k1 k2
      · exact .step rfl k1 (ih k2 (by simpa using hfuel))
    · exact .leave hn (h.other hn)

/-- the state after records that are passed over -/
def passed (st : St) (ns : List String) (n : Int) : St :=
  { st with g := { st.g with recordNames := ns, recSize := n } }

/-- the loop of `parse_file` goes from one state to another -/
def Turns (only : Option (List String)) (sk : LRec → Bool) (B fuel n : Nat) (st : St) (r : LRec)
    (rest : List LRec) (n' : Nat) (st' : St) (r' : LRec) (rest' : List LRec) : Prop :=
  Prog.run (L.reader sk) (parseLoop B only fuel n st (some (r.name, r.head))) ⟨r, 0, rest⟩ =
    Prog.run (L.reader sk) (parseLoop B only fuel n' st' (some (r'.name, r'.head))) ⟨r', 0, rest'⟩ ∧
  parseLoopLeft (L.reader sk) B only fuel n st (some (r.name, r.head)) ⟨r, 0, rest⟩ =
    parseLoopLeft (L.reader sk) B only fuel n' st' (some (r'.name, r'.head)) ⟨r', 0, rest'⟩

/-- the answer of `general_parser` -/
theorem turns_ok {B fuel n : Nat} {st st' : St} {r r' : LRec} {rest rest' : List LRec}
    (hne : r.name ≠ "") (hsel : Selected only r.name)
    (h : Prog.run (L.reader sk) (generalParser B fuel st (r.name, r.head)) ⟨r, 0, rest⟩ =
      .ok ((st', some (r'.name, r'.head)), ⟨r', 0, rest'⟩)) :
    Turns only sk B fuel (n + 1) st r rest n st' r' rest' := by
  constructor
  · simp only [parseLoop]
    rw [if_neg hne, selected_eq hsel, if_pos rfl, Prog.run_bind_ok h]
  · simp only [parseLoopLeft]
    rw [if_neg hne, selected_eq hsel, if_pos rfl, h]

/-- the answer of the loop over records that are not selected -/
theorem turns_skip {B fuel n : Nat} {st : St} {r r' : LRec} {rest rest' : List LRec}
    (hne : r.name ≠ "") (hsel : ¬ Selected only r.name)
    (h : Prog.run (L.reader sk) (skipLoop r.name fuel (r.name, r.head)) ⟨r, 0, rest⟩ =
      .ok ((r'.name, r'.head), ⟨r', 0, rest'⟩)) :
    Turns only sk B fuel (n + 1) st r rest n st r' rest' := by
  constructor
  · simp only [parseLoop]
    rw [if_neg hne, not_selected_eq hsel, if_neg (by simp), Prog.run_bind_ok h]
  · simp only [parseLoopLeft]
    rw [if_neg hne, not_selected_eq hsel, if_neg (by simp), h]

/-- `general_parser` on a void record, a record size, or an IEND record that is not the last: the
next header is read -/
theorem gp_simple {r : LRec} (h : Void r ∨ RecordSize r ∧ NotVoid r ∨ NotEndOfFile r) (B fuel : Nat)
    (st : St) (rest : List LRec) : ∃ ns m cr o, cr.pre = [] ∧ cr.vals = [] ∧
      Prog.run (L.reader sk) (generalParser B fuel st (r.name, r.head)) ⟨r, 0, rest⟩ =
        Prog.run (L.reader sk) (Prog.bind header fun h => .ret (passed st ns m, some h))
          ⟨cr, o, rest⟩ ∧
      generalLeft (L.reader sk) B fuel st (r.name, r.head) ⟨r, 0, rest⟩ = st.left := by
  rcases h with g4 | ⟨⟨k1, k2, k3, x, y, t, m, hx, hy⟩, x', t', hx', hneg⟩ |
    ⟨k1, k2, k3, x, t, hx, hne, hneg⟩
  · refine ⟨st.g.recordNames, st.g.recSize, ?_⟩
    unfold generalParser generalLeft
    cases g4 with
    | @one name x t skn pad k1 k2 =>
      refine ⟨⟨name, x :: t, [], skn, [], pad⟩, 0, rfl, rfl, ?_, ?_⟩
      · simp only
        rw [Prog.run_bind_ok run_idx, if_pos k1]
        rw [if_neg (by rw [eqInt_iff]; simpa using k2)]
        rw [Prog.run_bind_ok (Prog.run_ret _ _ _)]
        rfl
      · simp only
        rw [if_pos k1]
    | @two name t fs skn pad =>
      refine ⟨⟨name, .rat (-5) :: t, [], skn, [], pad⟩, 1, rfl, rfl, ?_, ?_⟩
      · simp only
        rw [Prog.run_bind_ok run_idx, if_pos (by decide +kernel), if_pos (by decide +kernel)]
        have : Prog.run (L.reader sk) (Prog.bind (floatrec 0) fun _ => .ret ())
            ⟨⟨name, .rat (-5) :: t, [.recd 0 fs], skn, [], pad⟩, 0, rest⟩ =
            .ok ((), ⟨⟨name, .rat (-5) :: t, [], skn, [], pad⟩, 1, rest⟩) := by
          rw [floatrec, Prog.run_bind, Prog.run_call]
          simp [L.reader]
        rw [Prog.run_bind_ok this]
        rfl
      · simp only
        rw [if_pos (by decide +kernel)]
  · rw [hx] at hx'
    simp only [List.cons.injEq] at hx'
    obtain ⟨rfl, rfl⟩ := hx'
    obtain ⟨o1, e1⟩ := Reads.intAt (l := x :: y :: t) (i := 1) (x := y) rfl hy r sk 0 rest
    refine ⟨st.g.recordNames ++ [r.name], m, r, o1, k2, k3, ?_, ?_⟩
    · unfold generalParser
      simp only
      rw [hx, Prog.run_bind_ok run_idx, if_neg (by simp [hneg]),
        show readers r.name = some .irecsize by rw [k1]; rfl]
      simp only [runReader]
      rw [Prog.run_bind_ok e1]
      rfl
    · unfold generalLeft
      simp only
      rw [hx]
      simp only
      rw [if_neg (by simp [hneg]), show readers r.name = some .irecsize by rw [k1]; rfl]
      rfl
  · refine ⟨st.g.recordNames ++ [r.name], st.g.recSize, r, 0, k2, k3, ?_, ?_⟩
    · unfold generalParser
      simp only
      rw [hx, Prog.run_bind_ok run_idx, if_neg (by simp [hneg]),
        show readers r.name = some .iend by rw [k1]; rfl]
      simp only [runReader]
      rw [Prog.run_bind_ok run_idx, if_neg (by rw [eqInt_iff]; simpa using hne)]
      rfl
    · unfold generalLeft
      simp only
      rw [hx]
      simp only
      rw [if_neg (by simp [hneg]), show readers r.name = some .iend by rw [k1]; rfl]
      rfl

/-- `general_parser` on a record of a type that is not read -/
theorem gp_unread {r : LRec} (h1 : r.name ≠ "IEND") (h2 : r.name ≠ "IRECSIZE")
    (h3 : ¬ HasTable r.name) (h4 : NotVoid r) (B fuel : Nat) (st : St) (rest : List LRec) :
    Prog.run (L.reader sk) (generalParser B fuel st (r.name, r.head)) ⟨r, 0, rest⟩ =
      Prog.run (L.reader sk) (Prog.bind (skipLoop r.name fuel (r.name, r.head)) fun h =>
        .ret (st, some h)) ⟨r, 0, rest⟩ ∧
    generalLeft (L.reader sk) B fuel st (r.name, r.head) ⟨r, 0, rest⟩ = st.left := by
  obtain ⟨x, t, hx, hneg⟩ := h4
  constructor
  · unfold generalParser
    simp only
    rw [hx, Prog.run_bind_ok run_idx, if_neg (by simp [hneg]), readers_none h3 h1 h2]
  · unfold generalLeft
    simp only
    rw [hx]
    simp only
    rw [if_neg (by simp [hneg]), readers_none h3 h1 h2]

/-- the loop of `parse_file` on records that are passed over -/
theorem passes_run (B fuel : Nat) {f' : List LRec} {r' : LRec} {rest' : List LRec}
    (hf' : f' = r' :: rest') : ∀ (n : Nat) (f : List LRec) (st : St) (r : LRec)
      (rest : List LRec), f = r :: rest → f.length < n → f.length < fuel →
      PassesTo only sk none f f' →
      ∃ n' ns k, f'.length < n' ∧
        Turns only sk B fuel n st r rest n' (passed st ns k) r' rest' := by
  intro n
  induction n with
  | zero => intro f _ _ _ _ h; omega
  | succ n ih =>
    intro f st r rest hf hn hfuel h
    subst hf
    generalize hff : r :: rest = f0 at h
    cases h with
    | done h1 h2 =>
      rw [← hff] at hf'
      simp only [List.cons.injEq] at hf'
      obtain ⟨rfl, rfl⟩ := hf'
      rw [hff] at hn
      exact ⟨n + 1, st.g.recordNames, st.g.recSize, hn, rfl, rfl⟩
    | @step _ cur' r0 rest0 _ h1 h2 =>
      simp only [List.cons.injEq] at hff
      obtain ⟨rfl, rfl⟩ := hff
      obtain ⟨r1, rest1, rfl⟩ := h2.nonempty
      simp only [List.length_cons] at hn hfuel
      -- one more turn of the loop
      have go : ∀ (st1 : St) (ns : List String) (k : Int) (r2 : LRec) (rest2 : List LRec),
          st1 = passed st ns k → (r2 :: rest2).length ≤ (r1 :: rest1).length →
          PassesTo only sk none (r2 :: rest2) f' →
          Turns only sk B fuel (n + 1) st r (r1 :: rest1) n st1 r2 rest2 →
          ∃ n' ns k, f'.length < n' ∧
          Turns only sk B fuel (n + 1) st r (r1 :: rest1) n' (passed st ns k) r' rest' := by
        rintro st1 ns k r2 rest2 rfl hlen hp heq
        simp only [List.length_cons] at hlen
        obtain ⟨n', ns', k', e1, e2⟩ := ih (r2 :: rest2) (passed st ns k) r2 rest2 rfl
          (by simp only [List.length_cons]; omega) (by simp only [List.length_cons]; omega) hp
        exact ⟨n', ns', k', e1, heq.1.trans e2.1, heq.2.trans e2.2⟩
      have simple : Selected only r.name → r.name ≠ "" → PassesTo only sk none (r1 :: rest1) f' →
          (Void r ∨ RecordSize r ∧ NotVoid r ∨ NotEndOfFile r) → ∃ n' ns k, f'.length < n' ∧
          Turns only sk B fuel (n + 1) st r (r1 :: rest1) n' (passed st ns k) r' rest' := by
        intro g1 g2 h2 g
        obtain ⟨ns, m, cr, o, e1, e2, e3, -⟩ := gp_simple (sk := sk) g B fuel st (r1 :: rest1)
        refine go _ ns m r1 rest1 rfl (Nat.le_refl _) h2 (turns_ok g2 g1 ?_)
        rw [e3, Prog.run_bind_ok (run_header' e1 e2)]
        rfl
      cases h1 with
      | void g1 g2 g3 g4 => exact simple g3 g2 h2 (.inl g4)
      | unselected g1 g2 g3 g4 =>
        obtain ⟨fuel', rfl⟩ : ∃ k, fuel = k + 1 := ⟨fuel - 1, by omega⟩
        obtain ⟨r0, rest0, r2, rest2, hr, hlen, hrun, hp⟩ := h2.unsel g3 fuel'
          (by simp only [List.length_cons]; omega)
        simp only [List.cons.injEq] at hr
        obtain ⟨rfl, rfl⟩ := hr
        refine go st st.g.recordNames st.g.recSize r2 rest2 rfl hlen hp ?_
        refine turns_skip g2 g3 ?_
        simp only [skipLoop]
        rw [if_pos trivial, Prog.run_bind_ok (run_skip g4)]
        exact hrun
      | unread g1 g2 g3 g4 g5 g6 g7 g8 =>
        obtain ⟨fuel', rfl⟩ : ∃ k, fuel = k + 1 := ⟨fuel - 1, by omega⟩
        obtain ⟨r0, rest0, r2, rest2, hr, hlen, hrun, hp⟩ := h2.unread g5 g3 g4 fuel'
          (by simp only [List.length_cons]; omega)
        simp only [List.cons.injEq] at hr
        obtain ⟨rfl, rfl⟩ := hr
        refine go st st.g.recordNames st.g.recSize r2 rest2 rfl hlen hp ?_
        refine turns_ok g2 g7 ?_
        rw [(gp_unread g3 g4 g5 g6 B (fuel' + 1) st _).1,
          Prog.run_bind_ok (a := (r2.name, r2.head)) (s' := ⟨r2, 0, rest2⟩)]
        · rfl
        · simp only [skipLoop]
          rw [if_pos trivial, Prog.run_bind_ok (run_skip g8)]
          exact hrun
      | recsize g1 g2 g3 => exact simple g1 (by rw [g2.1]; decide) h2 (.inr (.inl ⟨g2, g3⟩))
      | notEnd g1 g2 => exact simple g1 (by rw [g2.1]; decide) h2 (.inr (.inr g2))

/-- the loop of `parse_file` raises -/
def Raised (only : Option (List String)) (sk : LRec → Bool) (B fuel n : Nat) (st : St) (r : LRec)
    (rest : List LRec) : Prop :=
  Prog.run (L.reader sk) (parseLoop B only fuel n st (some (r.name, r.head))) ⟨r, 0, rest⟩ =
    .error .structError ∧
  parseLoopLeft (L.reader sk) B only fuel n st (some (r.name, r.head)) ⟨r, 0, rest⟩ = st.left

theorem raised_parser {B fuel n : Nat} {st : St} {r : LRec} {rest : List LRec}
    (hne : r.name ≠ "") (hsel : Selected only r.name)
    (h : Prog.run (L.reader sk) (generalParser B fuel st (r.name, r.head)) ⟨r, 0, rest⟩ =
      .error .structError)
    (hl : generalLeft (L.reader sk) B fuel st (r.name, r.head) ⟨r, 0, rest⟩ = st.left) :
    Raised only sk B fuel (n + 1) st r rest := by
  constructor
  · simp only [parseLoop]
    rw [if_neg hne, selected_eq hsel, if_pos rfl]
    exact Prog.run_bind_error h
  · simp only [parseLoopLeft]
    rw [if_neg hne, selected_eq hsel, if_pos rfl, h]
    exact hl

theorem raised_skip {B fuel n : Nat} {st : St} {r : LRec} {rest : List LRec}
    (hne : r.name ≠ "") (hsel : ¬ Selected only r.name)
    (h : Prog.run (L.reader sk) (skipLoop r.name fuel (r.name, r.head)) ⟨r, 0, rest⟩ =
      .error .structError) : Raised only sk B fuel (n + 1) st r rest := by
  constructor
  · simp only [parseLoop]
    rw [if_neg hne, not_selected_eq hsel, if_neg (by simp)]
    exact Prog.run_bind_error h
  · simp only [parseLoopLeft]
    rw [if_neg hne, not_selected_eq hsel, if_neg (by simp), h]

theorem run_header_ends {cr : LRec} {o : Nat} (h1 : cr.pre = []) (h2 : cr.vals = []) :
    Prog.run (L.reader sk) header ⟨cr, o, []⟩ = .error .structError := by
  rw [header, Prog.run_call]
  simp [L.reader, h1, h2, L.next]

/-- the loop of `parse_file` on records that are passed over, at the end of the file -/
theorem passesOut_run (B fuel : Nat) : ∀ (n : Nat) (f : List LRec) (st : St) (r : LRec)
      (rest : List LRec), f = r :: rest → f.length < n → f.length < fuel →
      PassesOut only sk none f → Raised only sk B fuel n st r rest := by
  intro n
  induction n with
  | zero => intro f _ _ _ _ h; omega
  | succ n ih =>
    intro f st r rest hf hn hfuel h
    subst hf
    simp only [List.length_cons] at hn hfuel
    -- one more turn of the loop
    have go : ∀ (st1 : St) (ns : List String) (k : Int) (r2 : LRec) (rest2 : List LRec),
        st1 = passed st ns k → (r2 :: rest2).length ≤ rest.length →
        PassesOut only sk none (r2 :: rest2) →
        Turns only sk B fuel (n + 1) st r rest n st1 r2 rest2 →
        Raised only sk B fuel (n + 1) st r rest := by
      rintro st1 ns k r2 rest2 rfl hlen hp heq
      obtain ⟨e1, e2⟩ := ih (r2 :: rest2) (passed st ns k) r2 rest2 rfl (by omega) (by omega) hp
      exact ⟨heq.1.trans e1, heq.2.trans e2⟩
    -- records of one type
    obtain ⟨fuel', rfl⟩ : ∃ k, fuel = k + 1 := ⟨fuel - 1, by omega⟩
    have simple : Selected only r.name → r.name ≠ "" → (rest = [] ∨ PassesOut only sk none rest) →
        (Void r ∨ RecordSize r ∧ NotVoid r ∨ NotEndOfFile r) →
        Raised only sk B (fuel' + 1) (n + 1) st r rest := by
      intro g1 g2 h2 g
      obtain ⟨ns, m, cr, o, e1, e2, e3, e4⟩ := gp_simple (sk := sk) g B (fuel' + 1) st rest
      rcases h2 with rfl | h2
      · exact raised_parser g2 g1 (e3.trans (Prog.run_bind_error (run_header_ends e1 e2))) e4
      · obtain ⟨r1, rest1, rfl⟩ := h2.nonempty
        refine go _ ns m r1 rest1 rfl (Nat.le_refl _) h2 (turns_ok g2 g1 ?_)
        rw [e3, Prog.run_bind_ok (run_header' e1 e2)]
        rfl
    have loops : sk r = true →
        (rest = [] ∧ HeaderOnly r ∨ LoopOut only sk r.name fuel' rest) →
        (∃ r1 rest1, (r1 :: rest1).length ≤ rest.length ∧
          Prog.run (L.reader sk) (skipLoop r.name (fuel' + 1) (r.name, r.head)) ⟨r, 0, rest⟩ =
            .ok ((r1.name, r1.head), ⟨r1, 0, rest1⟩) ∧ PassesOut only sk none (r1 :: rest1)) ∨
        Prog.run (L.reader sk) (skipLoop r.name (fuel' + 1) (r.name, r.head)) ⟨r, 0, rest⟩ =
          .error .structError := by
      rintro k1 (⟨rfl, k2⟩ | ⟨r0, rest0, rfl, k2⟩)
      · refine .inr ?_
        simp only [skipLoop]
        rw [if_pos trivial]
        exact Prog.run_bind_error (run_skip_ends k1 k2)
      · simp only [skipLoop]
        rw [if_pos trivial, Prog.run_bind_ok (run_skip k1)]
        exact k2
    have unsel : r.name ≠ "" → ¬ Selected only r.name → sk r = true →
        (rest = [] ∧ HeaderOnly r ∨ PassesOut only sk none rest) →
        Raised only sk B (fuel' + 1) (n + 1) st r rest := by
      intro g1 g2 g3 g4
      rcases loops g3 (g4.imp id fun h => h.unsel g2 fuel' (by omega)) with
        ⟨r1, rest1, e1, e2, e3⟩ | h
      · exact go st st.g.recordNames st.g.recSize r1 rest1 rfl e1 e3 (turns_skip g1 g2 e2)
      · exact raised_skip g1 g2 h
    have unread : r.name ≠ "" → r.name ≠ "IEND" → r.name ≠ "IRECSIZE" → ¬ HasTable r.name →
        NotVoid r → Selected only r.name → sk r = true →
        (rest = [] ∧ HeaderOnly r ∨ PassesOut only sk (some r.name) rest) →
        Raised only sk B (fuel' + 1) (n + 1) st r rest := by
      intro g1 g2 g3 g4 g5 g6 g7 g8
      obtain ⟨k1, k2⟩ := gp_unread (sk := sk) g2 g3 g4 g5 B (fuel' + 1) st rest
      rcases loops g7 (g8.imp id fun h => h.unread g2 g3 fuel' (by omega)) with
        ⟨r1, rest1, e1, e2, e3⟩ | h
      · refine go st st.g.recordNames st.g.recSize r1 rest1 rfl e1 e3 (turns_ok g1 g6 ?_)
        rw [k1, Prog.run_bind_ok e2]
        rfl
      · exact raised_parser g1 g6 (k1.trans (Prog.run_bind_error h)) k2
    generalize hff : r :: rest = f0 at h
    cases h with
    | last h1 h2 =>
      simp only [List.cons.injEq] at hff
      obtain ⟨rfl, rfl⟩ := hff
      cases h1 with
      | void g1 g2 g3 g4 => exact simple g3 g2 (.inl rfl) (.inl g4)
      | unselected g1 g2 g3 g4 =>
        exact unsel g2 g3 g4 (.inl ⟨rfl, h2.resolve_right fun h => g3 h.2.1⟩)
      | unread g1 g2 g3 g4 g5 g6 g7 g8 =>
        refine unread g2 g3 g4 g5 g6 g7 g8 (.inl ⟨rfl, h2.resolve_right fun h => ?_⟩)
        obtain ⟨x, t, e1, e2⟩ := g6
        cases h.2.2 with
        | one h' _ =>
          obtain ⟨rfl, _⟩ := List.cons.inj e1
          rw [h'] at e2; cases e2
        | two =>
          obtain ⟨rfl, _⟩ := List.cons.inj e1
          exact absurd e2 (by decide +kernel)
      | recsize g1 g2 g3 =>
        exact simple g1 (by rw [g2.1]; decide) (.inl rfl) (.inr (.inl ⟨g2, g3⟩))
      | notEnd g1 g2 => exact simple g1 (by rw [g2.1]; decide) (.inl rfl) (.inr (.inr g2))
    | step h1 h2 =>
      simp only [List.cons.injEq] at hff
      obtain ⟨rfl, rfl⟩ := hff
      cases h1 with
      | void g1 g2 g3 g4 => exact simple g3 g2 (.inr h2) (.inl g4)
      | unselected g1 g2 g3 g4 => exact unsel g2 g3 g4 (.inr h2)
      | unread g1 g2 g3 g4 g5 g6 g7 g8 => exact unread g2 g3 g4 g5 g6 g7 g8 (.inr h2)
      | recsize g1 g2 g3 =>
        exact simple g1 (by rw [g2.1]; decide) (.inr h2) (.inr (.inl ⟨g2, g3⟩))
      | notEnd g1 g2 => exact simple g1 (by rw [g2.1]; decide) (.inr h2) (.inr (.inr g2))

end

end Verif.Parse
