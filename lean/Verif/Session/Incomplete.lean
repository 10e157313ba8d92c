import Verif.Session.Stuck
/-!
# Opening an HDF5 file with a group that has no attributes (property theorems)
-/

namespace Verif.Session
open Verif Verif.Seq Verif.Parse Verif.Conv Verif.Data Verif.Data.Life Verif.Data.Load

/-! ### lists -/

theorem mapM_error {α β : Type} {f : α → Except Err β} : ∀ {l : List α} {e : Err},
    l.mapM f = .error e → ∃ x ∈ l, f x = .error e
  | [], e, h => by cases h
  | a :: l, e, h => by
    rw [List.mapM_cons] at h
    cases hx : f a with
    | error e' =>
      rw [hx] at h
      cases h
      exact ⟨a, by simp, hx⟩
    | ok y =>
      rw [hx] at h
      cases hr : l.mapM f with
      | error e' =>
        rw [hr] at h
        cases h
        obtain ⟨x, h1, h2⟩ := mapM_error hr
        exact ⟨x, by simp [h1], h2⟩
      | ok r => rw [hr] at h; cases h

theorem mapM_fails {α β : Type} {f : α → Except Err β} {x : α} {e : Err} (hx : f x = .error e)
    {l : List α} (hl : x ∈ l) : ∃ e', l.mapM f = .error e' := by
  cases hm : l.mapM f with
  | error e' => exact ⟨e', rfl⟩
  | ok r =>
    have := mapM_ok_iff.mp hm
    clear hm
    induction this with
    | nil => cases hl
    | cons h _ ih =>
      rcases List.mem_cons.mp hl with rfl | hl
      · rw [hx] at h; cases h
      · obtain ⟨e', he'⟩ := ih hl
        cases he'

/-- an HDF5 file in which DATATYPE of a group or LEVEL of a subgroup is missing -/
def Incomplete (h : H5) : Prop :=
  (∃ n a, h.groups [n] = some a ∧ a.datatype = none) ∨
  ∃ n m a b, h.groups [n] = some a ∧ h.groups [n, m] = some b ∧ b.level = none

section
variable {K V : Type} [Field K] [LinearOrder K] {iter : H5 → List (String × List String)} {pi : K}
  {num : PyF → K} {cplx : PyF → PyF → V} {D : Dec} {B : Nat} {s : State}

theorem subDesc_error {h : H5} {n m : String} {e : Err} (hd : subDesc h n m = .error e) :
    e = .attributeError := by
  unfold subDesc at hd
  cases h1 : h.groups [n, m] with
  | none => rw [h1] at hd; cases hd; rfl
  | some c =>
    rw [h1] at hd
    cases h2 : c.level with
    | none => simp only [attr, bind, Except.bind, h2] at hd; cases hd; rfl
    | some y => simp only [attr, bind, Except.bind, h2] at hd; cases hd

/-- what has been read of a group that could be read -/
theorem describe_ok {h : H5} {g : String × List String} {d : GroupDesc}
    (hd : describe pi num cplx h g = .ok d) :
    (∃ a dt, h.groups [g.1] = some a ∧ a.datatype = some dt) ∧
      ∃ ds, g.2.mapM (subDesc h g.1) = .ok ds := by
  unfold describe at hd
  cases h1 : h.groups [g.1] with
  | none => rw [h1] at hd; cases hd
  | some a =>
    rw [h1] at hd
    cases h2 : a.datatype with
    | none => simp only [attr, bind, Except.bind, h2] at hd; cases hd
    | some x =>
      refine ⟨⟨a, x, rfl, h2⟩, ?_⟩
      cases h3 : g.2.mapM (subDesc h g.1) with
      | ok ds => exact ⟨ds, rfl⟩
      | error e =>
        exfalso
        simp only [attr, bind, Except.bind, h2, h3] at hd
        repeat' split at hd
        all_goals cases hd

/-- an incomplete group cannot be read -/
theorem incomplete_error {h : H5} (hi : Enumerates h (iter h)) (hinc : Incomplete h) :
    ∃ e, (iter h).mapM (describe pi num cplx h) = .error e := by
  rcases hinc with ⟨n, a, h1, h2⟩ | ⟨n, m, a, b, h1, h2, h3⟩
  · obtain ⟨g, hg, rfl⟩ := List.mem_map.mp ((hi.groups n).mpr ⟨a, h1⟩)
    cases hd : describe pi num cplx h g with
    | error e => exact mapM_fails hd hg
    | ok d =>
      obtain ⟨⟨a', dt, h3, h4⟩, -⟩ := describe_ok hd
      rw [h1] at h3
      cases h3
      rw [h2] at h4
      cases h4
  · obtain ⟨g, hg, rfl⟩ := List.mem_map.mp ((hi.groups n).mpr ⟨a, h1⟩)
    cases hd : describe pi num cplx h g with
    | error e => exact mapM_fails hd hg
    | ok d =>
      obtain ⟨-, ds, h4⟩ := describe_ok hd
      have hb : subDesc h g.1 m = .error .attributeError := by
        unfold subDesc
        simp only [h2, attr, bind, Except.bind, h3]
      obtain ⟨e, he⟩ := mapM_fails hb (((hi.subs g hg).2 m).mpr ⟨b, h2⟩)
      rw [h4] at he
      cases he

/-- every group with attributes has a class -/
def OthersProper (pi : K) (num : PyF → K) (cplx : PyF → PyF → V) (h : H5) : Prop :=
  ∀ n a, h.groups [n] = some a → a.datatype ≠ none → ∃ c, ClassAt pi num cplx h n c

theorem describe_error {h : H5} (ho : OthersProper pi num cplx h) {g : String × List String}
    {e : Err} (hd : describe pi num cplx h g = .error e) : e = .attributeError := by
  cases h1 : h.groups [g.1] with
  | none =>
    unfold describe at hd
    rw [h1] at hd
    cases hd
    rfl
  | some a =>
    cases h2 : a.datatype with
    | none =>
      unfold describe at hd
      rw [h1] at hd
      simp only [attr, bind, Except.bind, h2] at hd
      cases hd
      rfl
    | some x =>
      obtain ⟨c, hc⟩ := ho _ a h1 (by rw [h2]; simp)
      cases h3 : g.2.mapM (subDesc h g.1) with
      | ok ds =>
        obtain ⟨d, k1, -⟩ := group_described hc h3
        rw [show (g.1, g.2) = g from rfl, hd] at k1
        cases k1
      | error e' =>
        obtain ⟨m, -, hm⟩ := mapM_error h3
        have he := subDesc_error hm
        subst he
        unfold describe at hd
        have n1 : ¬ ("STRUCTURAL" : String) = "HYDRODYNAMIC" := by decide
        cases hc with
        | top a1 a2 a3 =>
          simp only [a1, a2, a3, h3, attr, bind, Except.bind, if_neg n1, true_or, if_true] at hd
          cases hd
          rfl
        | first a1 a2 a3 =>
          simp only [a1, a2, a3, h3, attr, bind, Except.bind, if_neg n1, true_or, if_true] at hd
          cases hd
          rfl
        | hydro a1 a2 a3 a4 a5 =>
          simp only [a1, a2, a3, a4, a5, h3, attr, bind, Except.bind, or_true, if_true] at hd
          cases hd
          rfl

theorem readable_class {h : H5} (ho : OthersProper pi num cplx h) :
    ∀ (l : List (String × List String)), ∀ d ∈ readable pi num cplx h l, ∃ c, IsClass d c
  | [], d, hd => by cases hd
  | g :: l, d, hd => by
    unfold readable at hd
    split at hd
    · rename_i d' hd'
      rcases List.mem_cons.mp hd with rfl | hd
      · obtain ⟨⟨a, dt, h1, h2⟩, ds, h3⟩ := describe_ok hd'
        obtain ⟨c, hc⟩ := ho _ a h1 (by rw [h2]; simp)
        obtain ⟨d', k1, -, -, k2⟩ := group_described hc h3
        rw [show (g.1, g.2) = g from rfl, hd'] at k1
        cases k1
        exact ⟨c, k2⟩
      · exact readable_class ho l d hd
    · cases hd

theorem addGroups_ok (f base : Nat) : ∀ (gs : List GroupDesc) (b : Build),
    (∀ d ∈ gs, ∃ c, IsClass d c) → ∃ b', addGroups f base gs b = .ok b'
  | [], b, _ => ⟨b, rfl⟩
  | g :: gs, b, h => by
    obtain ⟨c, hc⟩ := h g (by simp)
    rw [addGroups, classOf_of hc]
    exact addGroups_ok f base gs _ fun d hd => h d (by simp [hd])

/-- **C75** `open_hdf5` on an HDF5 file with a group or subgroup that has not got its attributes
raises AttributeError (or what another group of the file makes it raise); there is no new File or
object. -/
theorem open_hdf5_incomplete {filename : Str} {h : H5}
    (hout : s.conv.out (s.conv.fullPath filename) = some (.h5 h) ∨
      s.conv.out (s.conv.fullPath filename) = some (.left h) ∧
        s.conv.fullPath filename ∉ s.conv.leaked)
    (hi : Enumerates h (iter h)) (hinc : Incomplete h) :
    ∃ s' e, openHdf5 iter pi num cplx s filename = (s', .error e) ∧
      (OthersProper pi num cplx h → e = .attributeError) ∧
      s'.life.files = s.life.files ∧ s'.life.datas = s.life.datas ∧
      s'.life.registry = s.life.registry ∧ s'.conv = s.conv := by
  obtain ⟨e, he⟩ := incomplete_error (pi := pi) (num := num) (cplx := cplx) hi hinc
  have key : openHdf5 iter pi num cplx s filename =
      openTables iter pi num cplx s (.disk (s.conv.fullPath filename)) h := by
    unfold openHdf5
    rcases hout with h1 | ⟨h1, h2⟩
    · simp only [h1]
    · simp only [h1]
      rw [if_neg (by simpa using h2)]
  rw [key]
  unfold openTables
  rw [he]
  dsimp only
  cases hr : (openFile s.life (readable pi num cplx h (iter h))).2 with
  | error e' =>
    refine ⟨_, e', rfl, fun ho => ?_, rfl, rfl, rfl, rfl⟩
    obtain ⟨b, hb⟩ := addGroups_ok s.life.files.length s.life.datas.length _ {}
      (readable_class ho (iter h))
    unfold openFile at hr
    rw [hb] at hr
    cases hr
  | ok f =>
    refine ⟨_, e, rfl, fun ho => ?_, rfl, rfl, rfl, rfl⟩
    obtain ⟨g, -, hg⟩ := mapM_error he
    exact describe_error ho hg

/-! ### after a conversion that raised -/

theorem lower_path {only : Option (List String)} {disk : Str → Option Bytes} {dir fp ext : Str}
    {formatted : Bool} {pre ft : String} {topSel : Int} {hp : Path} {all rows : List (List Cell)}
    {h : H5} {F : Failure} {c : Stop} {outs : List Added} {p : Path}
    (hl : LowerFails D only disk dir fp ext formatted pre ft topSel hp all rows h F)
    (hw : F.remains = .stopped c outs p) : ∃ n m, p = [n, m] := by
  induction hl with
  | skip _ _ ih => exact ih hw
  | missing _ _ _ ih => exact ih hw
  | file _ _ _ _ _ _ _ _ ih => exact ih hw
  | bad _ _ _ _ hb _ =>
    have := hb fun _ => none
    dsimp only at hw
    rw [hw] at this
    cases this <;> exact ⟨_, _, rfl⟩

theorem failed_path {only : Option (List String)} {e0 : Int → Option Int}
    {disk : Str → Option Bytes} {dir fp ext pre : Str} {l : Char} {b : Bytes} {h0 : H5} {F : Failure}
    {c : Stop} {outs : List Added} {p : Path}
    (hc : ConversionFails D only e0 disk dir fp l ext pre b h0 F)
    (hw : F.remains = .stopped c outs p) : (∃ n, p = [n]) ∨ ∃ n m, p = [n, m] := by
  cases hc with
  | file hb =>
    dsimp only at hw
    rw [hw] at hb
    cases hb <;> exact .inl ⟨_, rfl⟩
  | lower _ _ _ _ _ hl => exact .inr (lower_path hl hw)

theorem left_incomplete {c : Stop} {outs : List Added} {e0 elem : Int → Option Int} {h h' : H5}
    {p : Path} (hl : LeftBehind B c outs e0 h p h' elem) (hnew : h.groups p = none)
    (hlen : (∃ n, p = [n]) ∨ ∃ n m, p = [n, m]) :
    Incomplete h' ∧ (OthersProper pi num cplx h → OthersProper pi num cplx h') := by
  constructor
  · rcases hlen with ⟨n, rfl⟩ | ⟨n, m, rfl⟩
    · left
      refine ⟨n, {}, ?_, rfl⟩
      rw [hl.groups [n] (List.prefix_refl _) (by simp), hnew]
      rfl
    · right
      refine ⟨n, m, (h.groups [n]).getD {}, {}, ?_, ?_, rfl⟩
      · exact hl.groups [n] ⟨[m], rfl⟩ (by simp)
      · rw [hl.groups [n, m] (List.prefix_refl _) (by simp), hnew]
        rfl
  · intro ho n a ha hd
    have hsame : SameGroup h h' [n] := by
      by_cases hn : [n] <+: p
      · have hg := hl.groups [n] hn (by simp)
        cases hx : h.groups [n] with
        | none =>
          rw [hx] at hg
          rw [hg] at ha
          cases ha
          exact absurd rfl hd
        | some a' =>
          refine ⟨by rw [hg, hx]; rfl, fun k => hl.others _ (.inl ?_)⟩
          rintro rfl
          rw [hnew] at hx
          cases hx
      · refine ⟨hl.rest _ (.inl hn), fun k => hl.others _ (.inl ?_)⟩
        rintro rfl
        exact hn (List.prefix_refl _)
    obtain ⟨c', hc'⟩ := ho n a (by rw [← hsame.1]; exact ha) hd
    exact ⟨c', (classAt_congr hsame).mpr hc'⟩

/-- **C75** After `sif2hdf5` has raised because of a wrong record on a file for a new group,
`open_hdf5` cannot open the output file: it raises `ValueError` if the name of the output was given
as a full path, and otherwise AttributeError. -/
theorem open_after_failure {o : Options}
    {filename dir fname fp no ext given upre gpre hdf5 : Str} {l : Char} {b : Bytes} {F : Failure}
    {h0 : H5} {c : Stop} {outs : List Added} {p : Path}
    (hp : PathOf (s.conv.fullPath filename) dir fname) (hn : SesamName fname fp l no ext)
    (hsin : ext.getLast? ≠ some 'n' ∧ ext.getLast? ≠ some 'N')
    (hb : s.conv.disk (s.conv.fullPath filename) = some b)
    (hpre : gpre = if o.usefileprefix then upre ++ fp else upre)
    (happ : o.append = true → ∃ n, n ≠ [] ∧ o.hdf5name = some n)
    (hgiven : GivenName o fname given)
    (hclosed : ∀ p ∈ [given, s.conv.fullPath given], isOpen s s.life (.disk p) = false)
    (hbefore : Before s.conv o.append given h0)
    (hc : ConversionFails D o.only s.conv.st.env.elem s.conv.disk dir fp l ext gpre b h0 F)
    (hwrong : F.remains = .stopped c outs p) (hnew : F.reached.groups p = none)
    (hpath : s.conv.fullPath hdf5 = s.conv.fullPath given) :
    ∃ s' h', convert D B o s (.name filename) (.one upre) = (s', .error F.error) ∧
      s'.conv.out (s.conv.fullPath given) = some (.left h') ∧
      F.Leaves B o.only s.conv.st.env.elem h' s'.conv.st.env.elem ∧
      (Enumerates h' (iter h') → ∃ s'' e,
        openHdf5 iter pi num cplx s' hdf5 = (s'', .error e) ∧
        (s.conv.fullPath given ∈ given :: s.conv.leaked → e = .valueError) ∧
        (s.conv.fullPath given ∉ given :: s.conv.leaked → OthersProper pi num cplx F.reached →
          e = .attributeError) ∧
        s''.life.files = s.life.files ∧ s''.life.datas = s.life.datas ∧
        s''.life.registry = s.life.registry) := by
  obtain ⟨w', h', e1, e2, e3, e4, e5, e6, e7, e8, e9, e10⟩ := refused_file (B := B)
    (w := { s.conv with reading := openPaths s }) (o := { o with inMemory := false }) (pre := upre)
    hp hn hsin hb hpre rfl happ hgiven
    (before_session hbefore (hclosed _ (by simp)) (hclosed _ (by simp))) hc
  have hconv : convert D B o s (.name filename) (.one upre) =
      ({ s with conv := { w' with reading := [] } }, .error F.error) := by
    unfold convert
    rw [e1]
  have hfp : ({ w' with reading := [] } : Conv.World).fullPath hdf5 = s.conv.fullPath given := by
    rw [← hpath]
    unfold Conv.World.fullPath
    show (match hdf5 with | '/' :: _ => hdf5 | _ => w'.cwd ++ hdf5) = _
    rw [e6]
    rfl
  obtain ⟨e1', -, hl⟩ := id e3
  rw [hwrong] at hl
  obtain ⟨q1, q2⟩ := left_incomplete (pi := pi) (num := num) (cplx := cplx) hl hnew
    (failed_path hc hwrong)
  have hout : w'.out (({ w' with reading := [] } : Conv.World).fullPath hdf5) = some (.left h') := by
    rw [hfp]
    exact e2
  have hleak : w'.leaked = given :: s.conv.leaked := e8
  refine ⟨_, h', hconv, e2, e3, fun hi => ?_⟩
  by_cases hin : s.conv.fullPath given ∈ given :: s.conv.leaked
  · refine ⟨{ s with conv := { w' with reading := [] } }, .valueError, ?_, fun _ => rfl,
      fun h => absurd hin h, rfl, rfl, rfl⟩
    unfold openHdf5
    dsimp only
    rw [hout]
    dsimp only
    rw [hfp, if_pos (by rw [hleak]; simpa using hin)]
  · obtain ⟨s'', e, k1, k2, k3, k4, k5, -⟩ := open_hdf5_incomplete (pi := pi) (num := num)
      (cplx := cplx) (s := { s with conv := { w' with reading := [] } }) (filename := hdf5)
      (.inr ⟨hout, by rw [hfp]; show _ ∉ w'.leaked; rw [hleak]; exact hin⟩) hi q1
    exact ⟨s'', e, k1, fun h => absurd h hin, fun _ ho => k2 (q2 ho), k3, k4, k5⟩

end
end Verif.Session
