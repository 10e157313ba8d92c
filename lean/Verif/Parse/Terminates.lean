import Verif.Seq.Bounded
import Verif.Parse.Convert
import Verif.Parse.Demo
/-!
# C07: conversion terminates

On any content: the record loops of `parse_file` never need more than (file size + 2) iterations.
With that fuel the model never answers `outOfFuel`, and more fuel does not change its answer.
-/

namespace Verif.Parse
open Verif Verif.Seq

/-! ### programs without loops -/

/-- a program that does not run out of fuel by itself -/
inductive Quiet {α : Type} : Prog α → Prop
  | ret (a : α) : Quiet (.ret a)
  | fail {e : Err} : e ≠ .outOfFuel → Quiet (.fail e)
  | op {o : Op} {k : o.Res → Prog α} : (∀ r, Quiet (k r)) → Quiet (.op o k)

theorem Quiet.bind {α β : Type} {p : Prog α} {f : α → Prog β} (hp : Quiet p)
    (hf : ∀ a, Quiet (f a)) : Quiet (p.bind f) := by
  induction hp with
  | ret a => exact hf a
  | fail h => exact .fail h
  | op _ ih => exact .op ih

theorem Quiet.bind' {α β : Type} {p : Prog α} {f : α → Prog β} (hp : Quiet p)
    (hf : ∀ a, Quiet (f a)) : Quiet (p >>= f) := hp.bind hf

theorem Quiet.pure {α : Type} (a : α) : Quiet (Pure.pure a : Prog α) := .ret a

theorem Quiet.call (o : Op) : Quiet (Prog.call o) := .op fun _ => .ret _

theorem Quiet.floats (n : Int) (k : Nat) : Quiet (floats n k) := .call _
theorem Quiet.floatrec (k : Nat) : Quiet (floatrec k) := .call _
theorem Quiet.line (m : LineMode) : Quiet (line m) := .call _
theorem Quiet.atHeader : Quiet atHeader := .call _
theorem Quiet.header : Quiet header := .call _

theorem Quiet.lift {α : Type} {x : Except Err α} (h : Fine x) : Quiet (Prog.lift x) := by
  cases x with
  | error e => exact .fail fun he => h (by rw [he])
  | ok a => exact .ret a

theorem Quiet.times {α : Type} {p : Prog α} (hp : Quiet p) (n : Nat) : Quiet (p.times n) := by
  induction n with
  | zero => exact .ret _
  | succ n ih => exact hp.bind fun a => ih.bind fun as => .ret _

theorem Quiet.idx (l : List PyF) (i : Nat) : Quiet (idx l i) := .lift (fine_pyIdx l i)
theorem Quiet.int (x : PyF) : Quiet (int x) := .lift (fine_toInt x)
theorem Quiet.intAt (l : List PyF) (i : Nat) : Quiet (intAt l i) :=
  (Quiet.idx l i).bind fun x => Quiet.int x
theorem Quiet.look {α β : Type} (d : α → Option β) (k : α) : Quiet (look d k) := by
  unfold Parse.look
  split
  · exact .ret _
  · exact .fail (by simp)

theorem Quiet.ite {α : Type} {c : Prop} [Decidable c] {p q : Prog α} (hp : Quiet p) (hq : Quiet q) :
    Quiet (if c then p else q) := by
  split
  · exact hp
  · exact hq

/-- quietness of a program put together from the steps above -/
macro "quiet" : tactic => `(tactic| repeat' (first
  | exact Quiet.floats _ _
  | exact Quiet.floatrec _
  | exact Quiet.line _
  | exact Quiet.atHeader
  | exact Quiet.intAt _ _
  | exact Quiet.idx _ _
  | exact Quiet.int _
  | exact Quiet.look _ _
  | exact Quiet.pure _
  | exact Quiet.fail (by simp)
  | refine Quiet.times ?_ _
  | refine Quiet.ite ?_ ?_
  | refine Quiet.bind' ?_ fun _ => ?_))

/-- a loop body that does not run out of fuel by itself -/
def QuietBody (b : Body) : Prop := ∀ name env rec, Quiet (b name env rec)

theorem fine_nextFloat (l : List PyF) : Fine (nextFloat l) := by
  cases l <;> simp [nextFloat, Fine]

theorem fine_zelevComps (c : Bool) (comps it : List PyF) : Fine (zelevComps c comps it) := by
  induction comps generalizing it with
  | nil => exact fine_ok
  | cons x xs ih =>
    unfold zelevComps
    split
    · refine fine_bind (fine_nextFloat _) fun p => ?_
      dsimp only
      split
      · exact fine_bind (fine_nextFloat _) fun q => fine_bind (ih _) fun _ => fine_ok
      · exact fine_bind (ih _) fun _ => fine_ok
    · exact fine_bind (ih _) fun _ => fine_ok

theorem fine_zelevRec (c : Bool) (comps it : List PyF) : Fine (zelevRec c comps it) :=
  fine_bind (fine_nextFloat _) fun _ => fine_bind (fine_zelevComps _ _ _) fun _ => fine_ok

theorem quiet_standard (cols : List Col) (k : Nat) : QuietBody (standardBody cols k) := by
  intro name env rec; unfold standardBody; quiet
theorem quiet_optional (cols : List Col) (k m : Nat) : QuietBody (optionalBody cols k m) := by
  intro name env rec; unfold optionalBody; quiet
theorem quiet_hierarchRest (a b : List PyF) : Quiet (hierarchRest a b) := by
  unfold hierarchRest; quiet
theorem quiet_hierarch : QuietBody hierarchBody := by
  intro name env rec; unfold hierarchBody hierarchRest; quiet
theorem quiet_text : QuietBody textBody := by intro name env rec; unfold textBody; quiet
theorem quiet_td : QuietBody tdBody := by intro name env rec; unfold tdBody; quiet
theorem quiet_gelmnt1 : QuietBody gelmnt1Body := by intro name env rec; unfold gelmnt1Body; quiet
theorem quiet_gelmnt2 : QuietBody gelmnt2Body := by intro name env rec; unfold gelmnt2Body; quiet
theorem quiet_gelref1 : QuietBody gelref1Body := by
  intro name env rec; unfold gelref1Body gelref1Ref; quiet
theorem quiet_gsetmemb : QuietBody gsetmembBody := by
  intro name env rec; unfold gsetmembBody; quiet
theorem quiet_sconcept : QuietBody sconceptBody := by
  intro name env rec; unfold sconceptBody; quiet
theorem quiet_sconmesh : QuietBody sconmeshBody := by
  intro name env rec; unfold sconmeshBody; quiet
theorem quiet_bnbcd : QuietBody bnbcdBody := by intro name env rec; unfold bnbcdBody; quiet
theorem quiet_bldep : QuietBody bldepBody := by intro name env rec; unfold bldepBody; quiet
theorem quiet_beuslo : QuietBody beusloBody := by intro name env rec; unfold beusloBody; quiet
theorem quiet_brigac : QuietBody brigacBody := by intro name env rec; unfold brigacBody; quiet
theorem quiet_xsuptran : QuietBody xsuptranBody := by
  intro name env rec; unfold xsuptranBody; quiet
theorem quiet_compdef : QuietBody compdefBody := by intro name env rec; unfold compdefBody; quiet
theorem quiet_rdpoints : QuietBody rdpointsBody := by
  intro name env rec; unfold rdpointsBody respoint xform; quiet
theorem quiet_rdielcor : QuietBody rdielcorBody := by
  intro name env rec
  unfold rdielcorBody
  refine Quiet.bind' (Quiet.intAt _ _) fun i => ?_
  split
  · exact .fail (by simp)
  · quiet
theorem quiet_rdresref : QuietBody rdresrefBody := by
  intro name env rec; unfold rdresrefBody; quiet
theorem quiet_triples : QuietBody triplesBody := by intro name env rec; unfold triplesBody; quiet
theorem quiet_rvnodres : QuietBody rvnodresBody := by
  intro name env rec; unfold rvnodresBody; quiet
theorem quiet_rvelmres : QuietBody rvelmresBody := by
  intro name env rec; unfold rvelmresBody; quiet
theorem quiet_wdresref : QuietBody wdresrefBody := by
  intro name env rec; unfold wdresrefBody wdresrefType; quiet
theorem quiet_wglobdef : QuietBody wglobdefBody := by
  intro name env rec; unfold wglobdefBody; quiet
theorem quiet_wbody : QuietBody wbodyBody := by intro name env rec; unfold wbodyBody; quiet
theorem quiet_w1matrix : QuietBody w1matrixBody := by
  intro name env rec; unfold w1matrixBody; quiet
theorem quiet_wcommon : QuietBody wcommonBody := by
  intro name env rec; unfold wcommonBody sixValues; quiet
theorem quiet_w1sforce : QuietBody w1sforceBody := by
  intro name env rec; unfold w1sforceBody sixValues; quiet
theorem quiet_drift (n : Nat) : QuietBody (driftBody n) := by
  intro name env rec; unfold driftBody; quiet
theorem quiet_wfkpoint : QuietBody wfkpointBody := by
  intro name env rec; unfold wfkpointBody; quiet
theorem quiet_wfluidkn : QuietBody wfluidknBody := by
  intro name env rec; unfold wfluidknBody; quiet
theorem quiet_wsection : QuietBody wsectionBody := by
  intro name env rec; unfold wsectionBody; quiet
theorem quiet_wsurface : QuietBody wsurfaceBody := by
  intro name env rec
  unfold wsurfaceBody
  quiet
  exact Quiet.lift (fine_mapM (fun s => fine_zelevRec _ _ _) _)
theorem quiet_winput : QuietBody winputBody := by intro name env rec; unfold winputBody; quiet
theorem quiet_w1panpre : QuietBody w1panpreBody := by
  intro name env rec; unfold w1panpreBody; quiet

/-- the readers do not run out of fuel by themselves -/
def QuietRd : Rd → Prop
  | .block check body => (∀ rec, Fine (check rec)) ∧ QuietBody body
  | _ => True

theorem quiet_readers {name : String} {rd : Rd} (h : readers name = some rd) : QuietRd rd := by
  have hn : ∀ rec, Fine (noCheck rec) := fun _ => fine_ok
  have hs : ∀ n k rd, standard n k = some rd → QuietRd rd := by
    intro n k rd h
    unfold standard at h
    cases hd : descriptor n with
    | none => rw [hd] at h; cases h
    | some c => rw [hd] at h; cases h; exact ⟨hn, quiet_standard _ _⟩
  have ho : ∀ n k rd, optional n k = some rd → QuietRd rd := by
    intro n k rd h
    unfold optional at h
    cases hd : descriptor n with
    | none => rw [hd] at h; cases h
    | some c => rw [hd] at h; cases h; exact ⟨hn, quiet_optional _ _ _⟩
  have hc : ∀ rec, Fine (sconmeshCheck rec) := by
    intro rec
    refine fine_bind (fine_pyIdx _ _) fun x => fine_bind (fine_toInt _) fun n => ?_
    split
    · simp [Fine]
    · exact fine_ok
  unfold readers at h
  split at h
  · cases h; exact ⟨hn, quiet_td⟩
  split at h
  · cases h; exact ⟨hn, quiet_compdef⟩
  split at h
  · cases h; exact ⟨hn, quiet_wcommon⟩
  split at h
  all_goals first
    | exact hs _ _ _ h
    | exact ho _ _ _ h
    | (cases h; done)
    | (cases h; first
        | exact trivial
        | exact ⟨hc, quiet_sconmesh⟩
        | (refine ⟨hn, ?_⟩; first
            | exact quiet_text
            | exact quiet_gelmnt1
            | exact quiet_gelmnt2
            | exact quiet_gelref1
            | exact quiet_gsetmemb
            | exact quiet_sconcept
            | exact quiet_bnbcd
            | exact quiet_bldep
            | exact quiet_beuslo
            | exact quiet_brigac
            | exact quiet_xsuptran
            | exact quiet_rdpoints
            | exact quiet_rdielcor
            | exact quiet_rdresref
            | exact quiet_triples
            | exact quiet_rvnodres
            | exact quiet_rvelmres
            | exact quiet_wdresref
            | exact quiet_wglobdef
            | exact quiet_wbody
            | exact quiet_w1matrix
            | exact quiet_w1sforce
            | exact quiet_drift _
            | exact quiet_wfkpoint
            | exact quiet_wfluidkn
            | exact quiet_wsection
            | exact quiet_wsurface
            | exact quiet_winput
            | exact quiet_w1panpre))

/-! ### storing -/

theorem fine_storeSc (k : Kind) (s : Sc) : Fine (storeSc k s) := by
  cases k <;> cases s <;>
    first
      | exact fine_map (fine_toInt _)
      | simp [storeSc, Fine]

theorem fine_storeVal (k : Kind) (sh : Shape) (v : Val) : Fine (storeVal k sh v) := by
  unfold storeVal
  split
  · exact fine_map (fine_storeSc _ _)
  · split
    · exact fine_map (fine_mapM (fun _ => fine_storeSc _ _) _)
    · split
      · exact fine_map (fine_storeSc _ _)
      · simp [Fine]
  · split
    · exact fine_map (fine_mapM (fun _ => fine_mapM (fun _ => fine_storeSc _ _) _) _)
    · simp [Fine]
  · simp [Fine]

theorem fine_storeCells (cols : List Col) (row : List Val) : Fine (storeCells cols row) := by
  induction cols generalizing row with
  | nil => cases row <;> simp [storeCells, Fine]
  | cons c cs ih =>
    cases row with
    | nil => simp [storeCells, Fine]
    | cons v vs =>
      exact fine_bind (fine_storeVal _ _ _) fun _ => fine_bind (ih _) fun _ => fine_ok

theorem fine_storeRow (cols : List Col) (row : List Val) : Fine (storeRow cols row) := by
  unfold storeRow
  split
  · exact fine_storeCells _ _
  · simp [Fine]

theorem fine_appendItems (a : Arr) (d : List Val) : Fine (appendItems a d) := by
  refine fine_bind (fine_mapM (fun v => ?_) _) fun _ => fine_ok
  split
  · split
    · exact fine_storeVal _ _ _
    · simp [Fine]
  · exact fine_storeVal _ _ _

theorem fine_writeVls (vs : List Vl) (as : List Arr) : Fine (writeVls vs as) := by
  induction vs generalizing as with
  | nil => cases as <;> exact fine_ok
  | cons v vs ih =>
    cases as with
    | nil => exact fine_ok
    | cons a as =>
      refine fine_bind ?_ fun p => fine_bind (ih _) fun _ => fine_ok
      unfold Vl.write
      split
      · exact fine_ok
      · exact fine_bind (fine_appendItems _ _) fun _ => fine_ok

theorem fine_write (w : Work) : Fine w.write :=
  fine_bind (fine_writeVls _ _) fun _ => fine_ok

theorem fine_add (B : Nat) (e : Emit) (w : Work) : Fine (w.add B e) := by
  refine fine_bind (fine_storeRow _ _) fun c => ?_
  dsimp only
  split
  · exact fine_write _
  · exact fine_ok

theorem fine_fieldInt (cs : List Col) (xs : List Cell) (n : String) : Fine (fieldInt cs xs n) := by
  induction cs generalizing xs with
  | nil => simp [fieldInt, Fine]
  | cons c cs ih =>
    cases xs with
    | nil => simp [fieldInt, Fine]
    | cons x xs =>
      unfold fieldInt
      split
      · split
        · exact fine_ok
        · simp [Fine]
      · exact ih _

theorem fine_hierarchRow (st : St) (i : Int) : Fine (hierarchRow st i) := by
  unfold hierarchRow
  split
  · simp [Fine]
  · split
    · simp [Fine]
    · dsimp only
      generalize (if i < 0 then _ else i) = j
      split
      · simp [Fine]
      · split
        · exact fine_ok
        · simp [Fine]

theorem fine_getPath (st : St) : Fine (getPath st) := by
  unfold getPath
  dsimp only
  split
  · split
    · exact fine_bind (fine_hierarchRow _ _) fun _ => fine_bind (fine_fieldInt _ _ _) fun _ => fine_ok
    · split
      · exact fine_ok
      · exact fine_bind (fine_hierarchRow _ _) fun _ =>
          fine_bind (fine_fieldInt _ _ _) fun _ => fine_ok
  · split
    · exact fine_ok
    · simp [Fine]

theorem fine_getTable (name : String) (st : St) : Fine (getTable name st) := by
  have hc : Fine (do
      let p ← getPath st
      match descriptor name with
      | none => .error .keyError
      | some cols =>
        match st.h5.tabs (p, name) with
        | some _ => .error .nodeError
        | none =>
          let t : Tab := { cols := cols ++ boundCols (atoms name), arrs := atoms name }
          .ok (({ st with
                  h5 := (mkGroups st.h5 p).put p name t,
                  g := { st.g with tables := upd st.g.tables name p } } : St), p, t)) := by
    refine fine_bind (fine_getPath _) fun p => ?_
    split
    · simp [Fine]
    · split
      · simp [Fine]
      · exact fine_ok
  unfold getTable
  dsimp only
  split
  · exact hc
  · split
    · simp [Fine]
    · split
      · exact hc
      · exact fine_ok

theorem fine_classify (st : St) : Fine (classify st) := by
  have hf : ∀ (row : List Cell) (n : String) {β : Type} (f : Int → Except Err β),
      (∀ i, Fine (f i)) → Fine (hField row n >>= f) :=
    fun row n β f h => fine_bind (fine_fieldInt _ _ _) h
  unfold classify
  dsimp only
  split
  · split
    · refine fine_bind (fine_hierarchRow _ _) fun _ => hf _ _ _ fun i => ?_
      split <;> exact fine_ok
    · exact fine_ok
  · split
    · split
      · exact fine_ok
      · split
        · split
          · simp [Fine]
          · refine hf _ _ _ fun i => ?_
            split <;> exact fine_ok
        · exact fine_ok
    · split <;> exact fine_ok

theorem fine_setAttributes (st : St) : Fine (setAttributes st) := by
  refine fine_bind (fine_getPath _) fun p => ?_
  split
  · simp [Fine]
  · exact fine_bind (fine_classify _) fun _ => fine_ok

/-! ### running -/

section
variable {σ α β : Type} {R : Reader σ} {μ : σ → Nat}

theorem Quiet.run_fine (bd : Bounded R μ) {p : Prog α} (hp : Quiet p) (s : σ) :
    Fine (Prog.run R p s) := by
  induction hp generalizing s with
  | ret a => exact fine_ok
  | fail h => simpa [Prog.run, Fine] using h
  | @op o k _ ih =>
    unfold Prog.run
    have h := bd.fine o s
    cases hs : R.step o s with
    | error e => rw [hs] at h; simpa [Fine] using h
    | ok q => exact ih q.1 q.2

theorem run_le (bd : Bounded R μ) {p : Prog α} {s s' : σ} {a : α}
    (h : Prog.run R p s = .ok (a, s')) : μ s' ≤ μ s := by
  induction p generalizing s with
  | ret b => cases h; exact Nat.le_refl _
  | fail e => cases h
  | op o k ih =>
    unfold Prog.run at h
    cases hs : R.step o s with
    | error e => rw [hs] at h; cases h
    | ok q =>
      rw [hs] at h
      exact Nat.le_trans (ih q.1 h) (bd.le o s q.1 q.2 hs)

theorem run_header_lt (bd : Bounded R μ) {s s' : σ} {h : String × List PyF}
    (hr : Prog.run R header s = .ok (h, s')) (hn : h.1 ≠ "") : μ s' < μ s := by
  refine bd.header s h s' ?_ hn
  unfold header Prog.call Prog.run at hr
  cases hs : R.step .header s with
  | error e => rw [hs] at hr; cases hr
  | ok q => rw [hs] at hr; exact hr

theorem run_skip_lt (bd : Bounded R μ) {name : String} {rec : List PyF} {s s' : σ}
    {h : String × List PyF} (hr : Prog.run R (skipRest name rec) s = .ok (h, s'))
    (hn : h.1 ≠ "") : μ s' < μ s := by
  refine bd.skip name rec s h s' ?_ hn
  unfold skipRest Prog.call Prog.run at hr
  cases hs : R.step (.skip name rec) s with
  | error e => rw [hs] at hr; cases hr
  | ok q => rw [hs] at hr; exact hr

/-- Two programs that behave alike from `s` and do not run out of fuel; if they succeed the unread
part satisfies `post`. -/
def Alike (R : Reader σ) (p q : Prog α) (s : σ) (post : α → σ → Prop) : Prop :=
  Prog.run R p s = Prog.run R q s ∧ Fine (Prog.run R p s) ∧
    ∀ a s', Prog.run R p s = .ok (a, s') → post a s'

theorem Alike.of_quiet (bd : Bounded R μ) {p : Prog α} (hp : Quiet p) (s : σ) :
    Alike R p p s (fun _ s' => μ s' ≤ μ s) :=
  ⟨rfl, hp.run_fine bd s, fun _ _ h => run_le bd h⟩

theorem Alike.ret {a : α} {s : σ} {post : α → σ → Prop} (h : post a s) :
    Alike R (.ret a) (.ret a) s post :=
  ⟨rfl, fine_ok, fun b s' h' => by cases h'; exact h⟩

theorem Alike.bind {p q : Prog α} {f g : α → Prog β} {s : σ} {post1 : α → σ → Prop}
    {post : β → σ → Prop} (h1 : Alike R p q s post1)
    (h2 : ∀ a s', post1 a s' → Alike R (f a) (g a) s' post) :
    Alike R (p.bind f) (q.bind g) s post := by
  obtain ⟨e, fine, hp⟩ := h1
  unfold Alike
  rw [Prog.run_bind, Prog.run_bind, ← e]
  cases hr : Prog.run R p s with
  | error err => rw [hr] at fine; exact ⟨rfl, by simpa [Fine] using fine, by simp⟩
  | ok x => exact h2 x.1 x.2 (hp x.1 x.2 hr)

theorem Alike.mono {p q : Prog α} {s : σ} {post post' : α → σ → Prop} (h : Alike R p q s post)
    (hp : ∀ a s', post a s' → post' a s') : Alike R p q s post' :=
  ⟨h.1, h.2.1, fun a s' h' => hp a s' (h.2.2 a s' h')⟩

/-- a header that has been read from `s`: nameless, or progress has been made -/
def Moved (μ : σ → Nat) (s : σ) (h : String × List PyF) (s' : σ) : Prop :=
  μ s' ≤ μ s ∧ (h.1 ≠ "" → μ s' < μ s)

theorem alike_header (bd : Bounded R μ) (s : σ) :
    Alike R header header s (Moved μ s) :=
  ⟨rfl, Quiet.header.run_fine bd s, fun _ _ h => ⟨run_le bd h, run_header_lt bd h⟩⟩

theorem alike_lift {x : Except Err α} (bd : Bounded R μ) (hx : Fine x) (s : σ) :
    Alike R (Prog.lift x) (Prog.lift x) s (fun _ s' => μ s' ≤ μ s) :=
  .of_quiet bd (.lift hx) s

/-- the record loop: with enough fuel the fuel does not matter -/
theorem alike_loop (bd : Bounded R μ) (B : Nat) {body : Body} (hb : QuietBody body) {name : String}
    (hname : name ≠ "") (f1 : Nat) : ∀ (f2 : Nat) (w : Work) (env : Env) (h : String × List PyF)
    (s : σ), μ s + 2 ≤ f1 ∨ (h.1 ≠ name ∧ 1 ≤ f1) → μ s + 2 ≤ f2 ∨ (h.1 ≠ name ∧ 1 ≤ f2) →
    Alike R (loop B body name f1 w env h) (loop B body name f2 w env h) s
      (fun r s' => μ s' ≤ μ s ∧ (h.1 = name → r.2.2.1 ≠ "" → μ s' < μ s) ∧
        (h.1 ≠ name → r.2.2 = h)) := by
  induction f1 with
  | zero => intro f2 w env h s h1; omega
  | succ f1 ih =>
    intro f2 w env h s h1 h2
    cases f2 with
    | zero => omega
    | succ f2 =>
      unfold loop
      by_cases hh : h.1 = name
      · rw [if_pos hh, if_pos hh]
        refine (Alike.of_quiet bd (hb _ _ _) s).bind fun r s1 hs1 => ?_
        refine (alike_lift bd (fine_add _ _ _) s1).bind fun w' s2 hs2 => ?_
        refine (alike_header bd s2).bind fun h' s3 hs3 => ?_
        have h1' : μ s + 2 ≤ f1 + 1 := by
          rcases h1 with h1 | h1
          · exact h1
          · exact absurd hh h1.1
        have h2' : μ s + 2 ≤ f2 + 1 := by
          rcases h2 with h2 | h2
          · exact h2
          · exact absurd hh h2.1
        have hle := hs3.1
        refine (ih f2 w' r.1 h' s3 ?_ ?_).mono fun r s' hr => ?_
        · by_cases hn : h'.1 = name
          · have := hs3.2 (by rw [hn]; exact hname)
            exact .inl (by omega)
          · exact .inr ⟨hn, by omega⟩
        · by_cases hn : h'.1 = name
          · have := hs3.2 (by rw [hn]; exact hname)
            exact .inl (by omega)
          · exact .inr ⟨hn, by omega⟩
        · obtain ⟨k1, k2, k3⟩ := hr
          refine ⟨by omega, fun _ hne => ?_, fun hne => absurd hh hne⟩
          by_cases hn : h'.1 = name
          · have := k2 hn hne
            omega
          · rw [k3 hn] at hne
            have := hs3.2 hne
            omega
      · rw [if_neg hh, if_neg hh]
        exact .ret ⟨Nat.le_refl _, fun h' => absurd h' hh, fun _ => rfl⟩

/-- the loop that skips records -/
theorem alike_skipLoop (bd : Bounded R μ) {name : String} (hname : name ≠ "") (f1 : Nat) :
    ∀ (f2 : Nat) (h : String × List PyF) (s : σ),
    μ s + 2 ≤ f1 ∨ (h.1 ≠ name ∧ 1 ≤ f1) → μ s + 2 ≤ f2 ∨ (h.1 ≠ name ∧ 1 ≤ f2) →
    Alike R (skipLoop name f1 h) (skipLoop name f2 h) s
      (fun h' s' => μ s' ≤ μ s ∧ (h.1 = name → h'.1 ≠ "" → μ s' < μ s) ∧
        (h.1 ≠ name → h' = h)) := by
  induction f1 with
  | zero => intro f2 h s h1; omega
  | succ f1 ih =>
    intro f2 h s h1 h2
    cases f2 with
    | zero => omega
    | succ f2 =>
      unfold skipLoop
      by_cases hh : h.1 = name
      · rw [if_pos hh, if_pos hh]
        have hq : Quiet (skipRest h.1 h.2) := .call _
        have hsk : Alike R (skipRest h.1 h.2) (skipRest h.1 h.2) s (Moved μ s) :=
          ⟨rfl, hq.run_fine bd s, fun _ _ h => ⟨run_le bd h, run_skip_lt bd h⟩⟩
        refine hsk.bind fun h' s3 hs3 => ?_
        have h1' : μ s + 2 ≤ f1 + 1 := by
          rcases h1 with h1 | h1
          · exact h1
          · exact absurd hh h1.1
        have h2' : μ s + 2 ≤ f2 + 1 := by
          rcases h2 with h2 | h2
          · exact h2
          · exact absurd hh h2.1
        have hle := hs3.1
        refine (ih f2 h' s3 ?_ ?_).mono fun r s' hr => ?_
        · by_cases hn : h'.1 = name
          · have := hs3.2 (by rw [hn]; exact hname)
            exact .inl (by omega)
          · exact .inr ⟨hn, by omega⟩
        · by_cases hn : h'.1 = name
          · have := hs3.2 (by rw [hn]; exact hname)
            exact .inl (by omega)
          · exact .inr ⟨hn, by omega⟩
        · obtain ⟨k1, k2, k3⟩ := hr
          refine ⟨by omega, fun _ hne => ?_, fun hne => absurd hh hne⟩
          by_cases hn : h'.1 = name
          · have := k2 hn hne
            omega
          · rw [k3 hn] at hne
            have := hs3.2 hne
            omega
      · rw [if_neg hh, if_neg hh]
        exact .ret ⟨Nat.le_refl _, fun h' => absurd h' hh, fun _ => rfl⟩

/-- the answer of a reader: the end, or a header read -/
def MovedO (μ : σ → Nat) (s : σ) (o : Option (String × List PyF)) (s' : σ) : Prop :=
  μ s' ≤ μ s ∧ ∀ h, o = some h → h.1 ≠ "" → μ s' < μ s

theorem alike_block (bd : Bounded R μ) (B : Nat) {f1 f2 : Nat}
    {check : List PyF → Except Err Unit} {body : Body} (hc : ∀ rec, Fine (check rec))
    (hb : QuietBody body) (st : St) (h : String × List PyF) (hn : h.1 ≠ "") (s : σ)
    (h1 : μ s + 2 ≤ f1) (h2 : μ s + 2 ≤ f2) :
    Alike R (blockReader B f1 check body st h) (blockReader B f2 check body st h) s
      (fun r s' => MovedO μ s r.2 s') := by
  unfold blockReader
  refine (alike_lift bd (hc _) s).bind fun _ s1 hs1 => ?_
  refine (alike_lift bd (fine_getTable _ _) s1).bind fun a s2 hs2 => ?_
  refine (alike_loop bd B hb hn f1 f2 _ _ h s2 (.inl (by omega)) (.inl (by omega))).bind
    fun r s3 hs3 => ?_
  refine (alike_lift bd (fine_write _) s3).bind fun w s4 hs4 => ?_
  refine .ret ⟨by have := hs3.1; omega, ?_⟩
  rintro h' ⟨⟩ hne
  have := hs3.2.1 rfl hne
  omega

theorem alike_hierarch (bd : Bounded R μ) (B : Nat) {f1 f2 : Nat}
    (st : St) (h : String × List PyF) (s : σ)
    (h1 : μ s + 2 ≤ f1) (h2 : μ s + 2 ≤ f2) :
    Alike R (hierarchReader B f1 st h) (hierarchReader B f2 st h) s
      (fun r s' => MovedO μ s r.2 s') := by
  unfold hierarchReader
  refine (Alike.of_quiet bd (.floats _ _) s).bind fun _ s1 hs1 => ?_
  refine (Alike.of_quiet bd (.intAt _ _) s1).bind fun _ s2 hs2 => ?_
  refine (alike_lift bd (fine_getTable _ _) s2).bind fun a s3 hs3 => ?_
  refine (Alike.of_quiet bd (quiet_hierarchRest _ _) s3).bind fun _ s4 hs4 => ?_
  refine (alike_lift bd (fine_add _ _ _) s4).bind fun _ s5 hs5 => ?_
  refine (alike_header bd s5).bind fun h' s6 hs6 => ?_
  have hle := hs6.1
  refine (alike_loop bd B quiet_hierarch (name := "HIERARCH") (by simp) f1 f2 _ _ h' s6
    (.inl (by omega)) (.inl (by omega))).bind fun r s7 hs7 => ?_
  refine (alike_lift bd (fine_write _) s7).bind fun w s8 hs8 => ?_
  refine (alike_lift bd (fine_hierarchRow _ _) s8).bind fun w s9 hs9 => ?_
  obtain ⟨k1, k2, k3⟩ := hs7
  refine .ret ⟨by omega, ?_⟩
  rintro h'' ⟨⟩ hne
  by_cases hh : h'.1 = "HIERARCH"
  · have := k2 hh hne
    omega
  · rw [k3 hh] at hne
    have := hs6.2 hne
    omega

theorem alike_ident (bd : Bounded R μ) (st : St) (h : String × List PyF) (s : σ) :
    Alike R (identReader st h) (identReader st h) s (fun r s' => MovedO μ s r.2 s') := by
  unfold identReader
  have hq : Quiet (if isTrue st.g.currentSeltyp then Prog.ret st
     else Prog.bind (intAt h.2 1) fun n =>
       .ret { st with g := { st.g with currentSeltyp := some n } }) :=
    .ite (.ret _) ((Quiet.intAt _ _).bind fun _ => .ret _)
  refine (Alike.of_quiet bd hq s).bind fun _ s1 hs1 => ?_
  refine (alike_lift bd (fine_getTable _ _) s1).bind fun a s2 hs2 => ?_
  refine (Alike.of_quiet bd (.intAt _ _) s2).bind fun _ s3 hs3 => ?_
  refine (Alike.of_quiet bd (.intAt _ _) s3).bind fun _ s4 hs4 => ?_
  refine (Alike.of_quiet bd (.intAt _ _) s4).bind fun _ s5 hs5 => ?_
  refine (alike_header bd s5).bind fun h' s6 hs6 => ?_
  refine .ret ⟨by have := hs6.1; omega, ?_⟩
  rintro h'' ⟨⟩ hne
  have := hs6.2 hne
  omega

theorem alike_runReader (bd : Bounded R μ) (B : Nat) {f1 f2 : Nat} {rd : Rd} (hrd : QuietRd rd)
    (st : St) (h : String × List PyF) (hn : h.1 ≠ "") (s : σ)
    (h1 : μ s + 2 ≤ f1) (h2 : μ s + 2 ≤ f2) :
    Alike R (runReader B f1 rd st h) (runReader B f2 rd st h) s
      (fun r s' => MovedO μ s r.2 s') := by
  unfold runReader
  cases rd with
  | block check body => exact alike_block bd B hrd.1 hrd.2 st h hn s h1 h2
  | hierarch => exact alike_hierarch bd B st h s h1 h2
  | ident => exact alike_ident bd st h s
  | irecsize =>
    refine (Alike.of_quiet bd (.intAt _ _) s).bind fun _ s1 hs1 => ?_
    refine (alike_header bd s1).bind fun h' s2 hs2 => ?_
    refine .ret ⟨by have := hs2.1; omega, ?_⟩
    rintro h'' ⟨⟩ hne
    have := hs2.2 hne
    omega
  | iend =>
    refine (Alike.of_quiet bd (.idx _ _) s).bind fun x s1 hs1 => ?_
    by_cases hx : x.eqInt 0 = true
    · rw [if_pos hx]
      exact .ret ⟨hs1, fun _ h => by cases h⟩
    · rw [if_neg hx]
      refine (alike_header bd s1).bind fun h' s2 hs2 => ?_
      refine .ret ⟨by have := hs2.1; omega, ?_⟩
      rintro h'' ⟨⟩ hne
      have := hs2.2 hne
      omega

theorem alike_general (bd : Bounded R μ) (B : Nat) {f1 f2 : Nat} (st : St)
    (h : String × List PyF) (hn : h.1 ≠ "") (s : σ) (h1 : μ s + 2 ≤ f1) (h2 : μ s + 2 ≤ f2) :
    Alike R (generalParser B f1 st h) (generalParser B f2 st h) s
      (fun r s' => MovedO μ s r.2 s') := by
  unfold generalParser
  refine (Alike.of_quiet bd (.idx _ _) s).bind fun x s1 hs1 => ?_
  by_cases hx : x.ltZero = true
  · rw [if_pos hx, if_pos hx]
    have hq : Quiet (if x.eqInt (-5) then Prog.bind (floatrec 0) fun _ => Prog.ret () else .ret ()) :=
      .ite ((Quiet.floatrec _).bind fun _ => .ret _) (.ret _)
    refine (Alike.of_quiet bd hq s1).bind fun _ s2 hs2 => ?_
    refine (alike_header bd s2).bind fun h' s3 hs3 => ?_
    refine .ret ⟨by have := hs3.1; omega, ?_⟩
    rintro h'' ⟨⟩ hne
    have := hs3.2 hne
    omega
  · rw [if_neg hx, if_neg hx]
    cases hr : readers h.1 with
    | some rd =>
      refine (alike_runReader bd B (quiet_readers hr) _ h hn s1 (by omega) (by omega)).mono
        fun r s' hs' => ⟨by have := hs'.1; omega, fun h' ho hne => ?_⟩
      have := hs'.2 h' ho hne
      omega
    | none =>
      refine (alike_skipLoop bd hn f1 f2 h s1 (.inl (by omega)) (.inl (by omega))).bind
        fun h' s2 hs2 => ?_
      refine .ret ⟨by have := hs2.1; omega, ?_⟩
      rintro h'' ⟨⟩ hne
      have := hs2.2.1 rfl hne
      omega

/-- no more headers -/
def Ends (o : Option (String × List PyF)) : Prop := ∀ h, o = some h → h.1 = ""

theorem alike_parseLoop (bd : Bounded R μ) (B : Nat) (only : Option (List String)) {f1 f2 : Nat}
    (n1 : Nat) : ∀ (n2 : Nat) (st : St) (o : Option (String × List PyF)) (s : σ),
    μ s + 2 ≤ f1 → μ s + 2 ≤ f2 →
    μ s + 2 ≤ n1 ∨ (Ends o ∧ 1 ≤ n1) → μ s + 2 ≤ n2 ∨ (Ends o ∧ 1 ≤ n2) →
    Alike R (parseLoop B only f1 n1 st o) (parseLoop B only f2 n2 st o) s
      (fun _ s' => μ s' ≤ μ s) := by
  induction n1 with
  | zero => intro n2 st o s _ _ h1; omega
  | succ n1 ih =>
    intro n2 st o s hf1 hf2 h1 h2
    cases n2 with
    | zero => omega
    | succ n2 =>
      cases o with
      | none => exact .ret (Nat.le_refl _)
      | some h =>
        unfold parseLoop
        by_cases hh : h.1 = ""
        · rw [if_pos hh, if_pos hh]
          exact .ret (Nat.le_refl _)
        · rw [if_neg hh, if_neg hh]
          have h1' : μ s + 2 ≤ n1 + 1 := by
            rcases h1 with h1 | h1
            · exact h1
            · exact absurd (h1.1 h rfl) hh
          have h2' : μ s + 2 ≤ n2 + 1 := by
            rcases h2 with h2 | h2
            · exact h2
            · exact absurd (h2.1 h rfl) hh
          have key : ∀ (st' : St) (o' : Option (String × List PyF)) (s' : σ), MovedO μ s o' s' →
              Alike R (parseLoop B only f1 n1 st' o') (parseLoop B only f2 n2 st' o') s'
                (fun _ s'' => μ s'' ≤ μ s) := by
            intro st' o' s' hm
            have hm1 := hm.1
            have hcase : Ends o' ∨ μ s' < μ s := by
              cases o' with
              | none => exact .inl fun _ h => by cases h
              | some h' =>
                by_cases hne : h'.1 = ""
                · exact .inl fun _ h => by cases h; exact hne
                · exact .inr (hm.2 h' rfl hne)
            refine (ih n2 st' o' s' (by omega) (by omega) ?_ ?_).mono fun _ _ h => by omega
            · rcases hcase with hc | hc
              · exact .inr ⟨hc, by omega⟩
              · exact .inl (by omega)
            · rcases hcase with hc | hc
              · exact .inr ⟨hc, by omega⟩
              · exact .inl (by omega)
          by_cases hsel : selected only h.1 = true
          · rw [if_pos hsel, if_pos hsel]
            exact (alike_general bd B st h hh s hf1 hf2).bind fun r s' hm => key r.1 r.2 s' hm
          · rw [if_neg hsel, if_neg hsel]
            refine (alike_skipLoop bd hh f1 f2 h s (.inl hf1) (.inl hf2)).bind fun h' s' hm => ?_
            refine key st (some h') s' ⟨hm.1, ?_⟩
            rintro h'' ⟨⟩ hne
            exact hm.2.1 rfl hne

theorem alike_parseFile (bd : Bounded R μ) (B : Nat) (only : Option (List String)) {f1 f2 : Nat}
    (st : St) (s : σ) (h1 : μ s + 2 ≤ f1) (h2 : μ s + 2 ≤ f2) :
    Alike R (parseFile B f1 only st) (parseFile B f2 only st) s (fun _ s' => μ s' ≤ μ s) := by
  unfold parseFile
  refine (alike_header bd s).bind fun h s1 hs1 => ?_
  have hle := hs1.1
  refine (alike_parseLoop bd B only f1 f2 st (some h) s1 (by omega) (by omega)
    (.inl (by omega)) (.inl (by omega))).bind fun st' s2 hs2 => ?_
  exact (alike_lift bd (fine_setAttributes st') s2).mono fun _ s3 hs3 => by omega

end

/-! ### the theorems -/

/-- `parse_file` with a given limit on the number of iterations of each record loop -/
def parseLimited (D : Dec) (B limit : Nat) (only : Option (List String)) (st : St) :
    Source → Except Err St
  | .unformatted b => (Prog.run (U.reader D) (parseFile B limit only st) (U.openFile b)).map (·.1)
  | .formatted t => (Prog.run (T.reader D) (parseFile B limit only st) (T.openFile t)).map (·.1)

/-- number of bytes or characters -/
def Source.size : Source → Nat
  | .unformatted b => b.length
  | .formatted t => t.length

/-- **C07** `parse_file` on any content, with any selection and in any state, returns or raises
after at most (size + 2) iterations of each record loop. -/
theorem parse_terminates (D : Dec) (hD : D.Fine) (B : Nat) (only : Option (List String)) (st : St)
    (src : Source) : parseSource D B only st src ≠ .error .outOfFuel := by
  cases src with
  | unformatted b =>
    have h := alike_parseFile (U.bounded D) B only (f1 := b.length + 2) (f2 := b.length + 2) st
      (U.openFile b) (by simp [U.openFile]) (by simp [U.openFile])
    exact fine_map h.2.1
  | formatted t =>
    have h := alike_parseFile (T.bounded hD) B only (f1 := t.length + 2) (f2 := t.length + 2) st
      (T.openFile t) (by simp [T.openFile]) (by simp [T.openFile])
    exact fine_map h.2.1

/-- **C07** A higher limit on the iterations never changes the outcome. -/
theorem parse_limit_irrelevant (D : Dec) (hD : D.Fine) (B : Nat) (only : Option (List String))
    (st : St) (src : Source) (limit : Nat) (h : src.size + 2 ≤ limit) :
    parseLimited D B limit only st src = parseSource D B only st src := by
  cases src with
  | unformatted b =>
    have hl : b.length + 2 ≤ limit := h
    have h := alike_parseFile (U.bounded D) B only (f1 := limit) (f2 := b.length + 2) st
      (U.openFile b) (by simp [U.openFile]; omega) (by simp [U.openFile])
    simp only [parseLimited, parseSource, parseUnformatted, h.1]
  | formatted t =>
    have hl : t.length + 2 ≤ limit := h
    have h := alike_parseFile (T.bounded hD) B only (f1 := limit) (f2 := t.length + 2) st
      (T.openFile t) (by simpa [T.openFile] using hl) (by simp [T.openFile])
    simp only [parseLimited, parseSource, parseFormatted, h.1]

/-- **C07** Counting the records of any file terminates. -/
theorem recordcount_terminates (D : Dec) (hD : D.Fine) (b : Bytes) (t : Str) :
    getRecordcount (U.fileOps D) (U.openFile b) ≠ .error .outOfFuel ∧
    getRecordcount (T.fileOps D) (T.openFile t) ≠ .error .outOfFuel :=
  ⟨getRecordcount_fine (U.fileOps_ok D) _, getRecordcount_fine (T.fileOps_ok hD) _⟩

/-- the standard decoders qualify -/
theorem std_fine : Dec.std.Fine := by
  intro t
  show Fine (floatStd t)
  unfold floatStd
  dsimp only
  split
  · exact fine_ok
  · split
    · exact fine_ok
    · split
      · split
        · simp [Fine]
        · exact fine_ok
      · simp [Fine]

/-- a file that breaks off in the middle of a record raises, one with garbage too -/
example : parseSource Dec.std 3 none { g := { filetypeid := "T" } }
    (.unformatted (75 :: (Demo.bytes Demo.file).take 40)) =
      .error .structError := by
  have : (match parseSource Dec.std 3 none { g := { filetypeid := "T" } }
      (.unformatted (75 :: (Demo.bytes Demo.file).take 40)) with
      | .error e => decide (e = .structError)
      | .ok _ => false) = true := by decide +kernel
  revert this
  generalize parseSource Dec.std 3 none { g := { filetypeid := "T" } }
    (.unformatted (75 :: (Demo.bytes Demo.file).take 40)) = x
  cases x with
  | error e => simp
  | ok _ => simp
example (src : Source) := parse_terminates Dec.std std_fine 3 none {} src

end Verif.Parse
