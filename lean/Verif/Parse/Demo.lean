import Verif.Parse.Select
/-!
# A small file, used to show that the hypotheses of the theorems can be met
-/

namespace Verif.Parse.Demo
open Verif Verif.Seq Verif.Parse

/-- two nodes, one beam element with per-node section numbers, one pipe section without the
optional fields -/
def file : List LRec := [
  ⟨"IDENT", [.rat 1, .rat 5, .rat 3, .rat 0], [], 0, [], []⟩,
  ⟨"GNODE", [.rat 1, .rat 11, .rat 6, .rat 123456], [], 0, [], []⟩,
  ⟨"GNODE", [.rat 2, .rat 12, .rat 6, .rat 123456], [], 0, [], []⟩,
  ⟨"GCOORD", [.rat 1, .rat 0, .rat (1/2), .rat 0], [], 0, [], []⟩,
  ⟨"GCOORD", [.rat 2, .rat 3, .rat 0, .rat (-1)], [], 0, [], []⟩,
  ⟨"GELMNT1", [.rat 1, .rat 1, .rat 15, .rat 0], [], 8, [.rat 1, .rat 2], [.rat 0, .rat 0]⟩,
  ⟨"GELREF1", [.rat 1, .rat 4, .rat 0, .rat 0],
    [.recd 8 [.rat 0, .rat 0, .rat 0, .rat 0], .recd 8 [.rat (-1), .rat 9, .rat 0, .rat 0]], 8,
    [.rat 7, .rat 8], [.rat 0, .rat 0]⟩,
  ⟨"GPIPE", [.rat 7, .rat 1, .rat 2, .rat (1/2)], [], 8, [.rat 1, .rat 1], []⟩,
  ⟨"IEND", [.rat 0, .rat 0, .rat 0, .rat 0], [], 0, [], []⟩]

/-- what is added to the tables -/
def outs : List Added := [
  ⟨"IDENT", true, [.sc (.int 1), .sc (.int 5), .sc (.int 3)], []⟩,
  ⟨"GNODE", true, [.sc (.int 1), .sc (.int 11), .sc (.int 6), .sc (.int 123456)], []⟩,
  ⟨"GNODE", false, [.sc (.int 2), .sc (.int 12), .sc (.int 6), .sc (.int 123456)], []⟩,
  ⟨"GCOORD", true, [.sc (.int 1), .sc (.flt (.rat 0)), .sc (.flt (.rat (1/2))),
    .sc (.flt (.rat 0))], []⟩,
  ⟨"GCOORD", false, [.sc (.int 2), .sc (.flt (.rat 3)), .sc (.flt (.rat 0)),
    .sc (.flt (.rat (-1)))], []⟩,
  ⟨"GELMNT1", true, [.sc (.int 1), .sc (.int 1), .sc (.int 15), .sc (.int 0)],
    [some [.sc (.int 1), .sc (.int 2)]]⟩,
  ⟨"GELREF1", true, [.sc (.int 1), .sc (.int 4), .sc (.int 0), .sc (.int 0), .sc (.int 0),
    .sc (.int 0), .sc (.int 0), .sc (.int 0), .sc (.int (-1)), .sc (.int 9), .sc (.int 0),
    .sc (.int 0)], [some [.sc (.int 7), .sc (.int 8)], some [], some [], some []]⟩,
  ⟨"GPIPE", true, [.sc (.int 7), .sc (.flt (.rat 1)), .sc (.flt (.rat 2)),
    .sc (.flt (.rat (1/2))), .sc (.int 1), .sc (.int 1), .sc (.int 0), .sc (.int 0)], []⟩]

/-- the record types read -/
def names : List String := ["IDENT", "GNODE", "GCOORD", "GELMNT1", "GELREF1", "GPIPE", "IEND"]

/-- prove that a concrete row is stored -/
macro "stored" : tactic => `(tactic| (
  refine ⟨?_, rfl, rfl⟩
  repeat' (first
    | exact List.Forall₂.nil
    | refine List.Forall₂.cons ?_ ?_
    | exact Stored.sc (.flt (rounds_of (by decide +kernel)))
    | exact Stored.sc (.intInt _)
    | exact Stored.sc (.int (toInt_hasInt (by decide +kernel)))
    | exact trivial)))

/-- the layout of a record type -/
def lay (n : String) : Layout := (layouts.find? fun l => l.name = n).getD ⟨n, [], []⟩

theorem more {only : Option (List String)} {sk : LRec → Bool} {e0 : Int → Option Int}
    {cur : Option String} {past : List LRec} {r : LRec} {rest : List LRec} {o : Added}
    {outs : List Added} {names : List String} (hc : cur = some r.name) (hn : r.name ≠ "IDENT")
    (ha : Adds e0 past rest.head? false r o)
    (h : Accepts only sk e0 (some r.name) (r :: past) rest outs names) :
    Accepts only sk e0 cur past (r :: rest) (o :: outs) names := by
  subst hc; exact .more hn ha h

theorem accepted (sk : LRec → Bool) : Accepts none sk (fun _ => none) none [] file outs names := by
  have nv : ∀ {n : String} {x : PyF} {t : List PyF} {p sk v d}, x.ltZero = false →
      NotVoid ⟨n, x :: t, p, sk, v, d⟩ := fun h => ⟨_, _, rfl, h⟩
  have fo : ∀ {r : LRec}, r.name ≠ "SCONMESH" → FirstOK r := fun h h' => absurd h' h
  have int : ∀ {x : PyF} (n : Int), x.toInt = .ok n → HasInt x n := fun n h => toInt_hasInt h
  unfold file outs names
  refine .ident rfl trivial (nv (by decide +kernel)) ?_ ?_
  · exact ⟨_, lay "IDENT", .ident (int 1 (by decide +kernel)) (int 5 (by decide +kernel))
      (int 3 (by decide +kernel)), by decide +kernel, rfl, rfl, rfl, by stored, by stored⟩
  refine .first (by simp) (by simp) trivial (nv (by decide +kernel)) (fo (by simp)) ?_ ?_
  · exact ⟨_, lay "GNODE", .fixed (n := 4) (k := 0) (by decide) rfl (by simp), by decide +kernel,
      rfl, rfl, rfl, by stored, by stored⟩
  refine more rfl (by simp) ?_ ?_
  · exact ⟨_, lay "GNODE", .fixed (n := 4) (k := 0) (by decide) rfl (by simp), by decide +kernel,
      rfl, rfl, rfl, by stored, by stored⟩
  refine .first (by simp) (by simp) trivial (nv (by decide +kernel)) (fo (by simp)) ?_ ?_
  · exact ⟨_, lay "GCOORD", .fixed (n := 4) (k := 0) (by decide) rfl (by simp), by decide +kernel,
      rfl, rfl, rfl, by stored, by stored⟩
  refine more rfl (by simp) ?_ ?_
  · exact ⟨_, lay "GCOORD", .fixed (n := 4) (k := 0) (by decide) rfl (by simp), by decide +kernel,
      rfl, rfl, rfl, by stored, by stored⟩
  refine .first (by simp) (by simp) trivial (nv (by decide +kernel)) (fo (by simp)) ?_ ?_
  · exact ⟨_, lay "GELMNT1", .gelmnt1 (int 1 (by decide +kernel)) (int 15 (by decide +kernel))
      (by unfold NodeCount; simp), by decide +kernel, rfl, rfl, rfl, by stored, by stored⟩
  refine .first (by simp) (by simp) trivial (nv (by decide +kernel)) (fo (by simp)) ?_ ?_
  · refine ⟨_, lay "GELREF1", .gelref1 (geo := [.rat 7, .rat 8]) (fix := []) (ecc := [])
      (trans := []) (nn := 2) (ty := 15) (int 1 (by decide +kernel)) (.inl ?_)
      (by unfold NodeCount; simp) ⟨fun _ => rfl, fun h => absurd rfl h⟩
      ⟨fun h => absurd h (by decide +kernel), fun _ => rfl⟩
      ⟨fun h => absurd h (by decide +kernel), fun _ => rfl⟩
      ⟨fun h => absurd h (by decide +kernel), fun _ => rfl⟩,
      by decide +kernel, rfl, rfl, rfl, by stored, by stored⟩
    exact .here ⟨rfl, _, _, _, _, rfl, int 1 (by decide +kernel), int 15 (by decide +kernel)⟩
  refine .first (by simp) (by simp) trivial (nv (by decide +kernel)) (fo (by simp)) ?_ ?_
  · exact ⟨_, lay "GPIPE", .optAbsent (n := 8) (m := 2) (by decide) rfl rfl (by decide +kernel),
      by decide +kernel, rfl, rfl, rfl, by stored, by stored⟩
  exact .stop trivial ⟨rfl, _, _, rfl, rfl⟩

/-! ### the file on disk -/

/-- a number as 32 bit float -/
def f32 (x : PyF) : Bytes :=
  (([(.rat 1, [0, 0, 128, 63]), (.rat 2, [0, 0, 0, 64]), (.rat 3, [0, 0, 64, 64]),
    (.rat 4, [0, 0, 128, 64]), (.rat 5, [0, 0, 160, 64]), (.rat 6, [0, 0, 192, 64]),
    (.rat 7, [0, 0, 224, 64]), (.rat 8, [0, 0, 0, 65]), (.rat 9, [0, 0, 16, 65]),
    (.rat 11, [0, 0, 48, 65]), (.rat 12, [0, 0, 64, 65]), (.rat 15, [0, 0, 112, 65]),
    (.rat 16, [0, 0, 128, 65]), (.rat 10, [0, 0, 32, 65]),
    (.rat 101, [0, 0, 202, 66]),
    (.rat 123456, [0, 32, 241, 71]), (.rat (1/2), [0, 0, 0, 63]), (.rat (-1), [0, 0, 128, 191]),
    (.rat 20, [0, 0, 160, 65]),
    (.rat 21, [0, 0, 168, 65]),
    (.rat 30, [0, 0, 240, 65]),
    (.rat 31, [0, 0, 248, 65]),
    (.rat 32, [0, 0, 0, 66]),
    (.rat 22, [0, 0, 176, 65]),
    (.rat 13, [0, 0, 80, 65]),
    (.rat 14, [0, 0, 96, 65]),
    (.rat 17, [0, 0, 136, 65]),
    (.rat 18, [0, 0, 144, 65]),
    (.rat 19, [0, 0, 152, 65]),
    (.rat 40, [0, 0, 32, 66]),
    (.rat 50, [0, 0, 72, 66]),
    (.rat 60, [0, 0, 112, 66]),
    (.rat 70, [0, 0, 140, 66]),
    (.rat 80, [0, 0, 160, 66]),
    (.rat 90, [0, 0, 180, 66]),
    (.rat 100, [0, 0, 200, 66]),
    (.rat 1000, [0, 0, 122, 68]),
    (.rat 33, [0, 0, 4, 66]),
    (.rat 34, [0, 0, 8, 66]),
    (.rat 35, [0, 0, 12, 66]),
    (.rat 36, [0, 0, 16, 66]),
    (.rat 38, [0, 0, 24, 66]),
    (.rat 39, [0, 0, 28, 66]),
    (.rat 41, [0, 0, 36, 66]),
    (.rat 42, [0, 0, 40, 66]),
    (.rat 62, [0, 0, 120, 66]),
    (.rat 49, [0, 0, 68, 66])] :
      List (PyF × Bytes)).lookup x).getD [0, 0, 0, 0]

/-- a number in 16 columns -/
def f16 (x : PyF) : Str :=
  let t := (([(.rat 1, "1.0E+00"), (.rat 2, "2.0"), (.rat 3, "3."), (.rat 4, "4"), (.rat 5, "5"),
    (.rat 6, "6"), (.rat 7, "7"), (.rat 8, "8"), (.rat 9, "9"), (.rat 11, "1.1E1"), (.rat 12, "12"),
    (.rat 15, "15"), (.rat 16, "16"), (.rat 10, "10"), (.rat 101, "101"), (.rat 123456, "123456"), (.rat (1/2), "5e-1"), (.rat (-1), "-1")] :
      List (PyF × String)).lookup x).getD "0"
  List.replicate (16 - t.toList.length) ' ' ++ t.toList

/-- payload of a unit record -/
def segU : Seg → Bytes
  | .recd k fs => List.replicate k 32 ++ fs.flatMap f32
  | .text t => t.map toByte

/-- values in physical records of at most 24 -/
def chunks : Nat → List PyF → List (List PyF)
  | 0, _ => []
  | n + 1, l => if l = [] then [] else l.take 24 :: chunks n (l.drop 24)

/-- payloads behind the header -/
def bodyU (r : LRec) : List Bytes :=
  r.pre.map segU ++ (chunks 9 (r.vals ++ r.pad)).map fun c =>
    List.replicate r.skip 32 ++ c.flatMap f32

/-- payload of the header -/
def headU (r : LRec) : Bytes := (nameField r.name).map toByte ++ r.head.flatMap f32

/-- a framed record -/
def frameU (c : Bytes) : Bytes := UInt8.ofNat c.length :: (c ++ [UInt8.ofNat c.length])

/-- the bytes of a file -/
def bytes : List LRec → Bytes
  | [] => []
  | r :: rs => (headU r :: bodyU r).flatMap frameU ++ bytes rs

/-- the lines of a unit record -/
def segT : Seg → Str
  | .recd _ fs => List.replicate 8 ' ' ++ fs.flatMap f16
  | .text t => t

/-- the lines behind the header -/
def bodyT (r : LRec) : List Str :=
  r.pre.map segT ++ if r.vals = [] then [] else
    [List.replicate 8 ' ' ++ (r.vals ++ r.pad).flatMap f16]

/-- the header line -/
def headT (r : LRec) : Str := nameField r.name ++ r.head.flatMap f16

/-- the text of a file -/
def text : List LRec → Str
  | [] => []
  | r :: rs => T.unlines (headT r :: bodyT r) ++ text rs

/-- do these codings decode to the numbers of the record? -/
def okU (r : LRec) : Bool :=
  decide (r.name.toList ≠ []) && decide (r.name.toList.length ≤ 8) &&
  r.name.toList.all (fun c => decide (33 ≤ c.toNat) && decide (c.toNat ≤ 126)) &&
  decide (U.tofloatrec Dec.std (r.head.flatMap f32) = .ok r.head) &&
  (r.pre.all fun s => match s with
    | .recd _ fs => decide (U.tofloatrec Dec.std (fs.flatMap f32) = .ok fs)
    | .text t => t.all fun c => decide (32 ≤ c.toNat) && decide (c.toNat ≤ 126)) &&
  decide ((chunks 9 (r.vals ++ r.pad)).flatten = r.vals ++ r.pad) &&
  (chunks 9 (r.vals ++ r.pad)).all (fun c =>
    decide (U.tofloatrec Dec.std (c.flatMap f32) = .ok c)) &&
  (decide (chunks 9 (r.vals ++ r.pad) = []) ||
    decide ((chunks 9 (r.vals ++ r.pad)).dropLast.flatten.length < r.vals.length)) &&
  (headU r :: bodyU r).all fun c => decide (c.length < 129)

/-- the same for text -/
def okT (r : LRec) : Bool :=
  decide (r.name.toList ≠ []) && decide (r.name.toList.length ≤ 8) &&
  r.name.toList.all (fun c => decide (33 ≤ c.toNat) && decide (c.toNat ≤ 126)) &&
  decide ('\n' ∉ r.head.flatMap f16) &&
  decide (T.tofloatrec Dec.std (r.head.flatMap f16) = .ok r.head) &&
  (r.pre.all fun s => match s with
    | .recd _ fs => decide ('\n' ∉ fs.flatMap f16) &&
        decide (T.tofloatrec Dec.std (fs.flatMap f16) = .ok fs)
    | .text t => t.all fun c => decide (32 ≤ c.toNat) && decide (c.toNat ≤ 126)) &&
  (decide (r.vals = [] ∧ r.pad = []) || (decide (r.vals ≠ []) &&
    decide ((r.vals ++ r.pad).length ≤ 4) && decide ('\n' ∉ (r.vals ++ r.pad).flatMap f16) &&
    decide (T.tofloatrec Dec.std ((r.vals ++ r.pad).flatMap f16) = .ok (r.vals ++ r.pad))))

theorem frames_of {cs : List Bytes} (h : ∀ c ∈ cs, c.length < 129) :
    U.Frames cs (cs.flatMap frameU) := by
  induction cs with
  | nil => exact .nil
  | cons c cs ih =>
    rw [List.flatMap_cons]
    refine .cons ⟨_, _, rfl, ?_⟩ (ih fun c hc => h c (by simp [hc]))
    have hc := h c (by simp)
    have : (UInt8.ofNat c.length).toNat = c.length := by
      rw [UInt8.toNat_ofNat']; omega
    rw [this]
    have hne : UInt8.ofNat c.length ≠ 129 := by
      intro he
      have := congrArg UInt8.toNat he
      rw [‹(UInt8.ofNat c.length).toNat = c.length›] at this
      have h129 : (129 : UInt8).toNat = 129 := rfl
      omega
    rw [if_neg hne]

theorem encodesU {f : List LRec} (h : f.all okU = true) :
    U.Encodes Dec.std (fun _ => false) [] f (bytes f) := by
  induction f with
  | nil => exact .nil
  | cons r rs ih =>
    simp only [List.all_cons, Bool.and_eq_true] at h
    obtain ⟨h, hrs⟩ := h
    simp only [okU, Bool.and_eq_true, Bool.or_eq_true, decide_eq_true_eq, List.all_eq_true] at h
    obtain ⟨⟨⟨⟨⟨⟨⟨⟨h1, h2⟩, h3⟩, h4⟩, h5⟩, h6⟩, h8⟩, h9⟩, h7⟩ := h
    rw [bytes]
    refine .cons (c := headU r) (body := bodyU r) ⟨⟨h1, h2, h3⟩, _, rfl, h4⟩ ?_
      (frames_of h7) (fun hf => by cases hf) (ih hrs)
    refine ⟨r.pre.map segU, _, rfl, ?_, ?_⟩
    · rw [List.forall₂_map_right_iff]
      refine List.forall₂_same.mpr fun s hs => ?_
      have := h5 s hs
      cases s with
      | recd k fs => exact ⟨_, rfl, by simpa using this⟩
      | text t => exact ⟨fun c hc => by simpa using List.all_eq_true.mp this c hc, rfl⟩
    · refine ⟨chunks 9 (r.vals ++ r.pad), ?_, h6, fun hp => ?_⟩
      · rw [List.forall₂_map_left_iff]
        exact List.forall₂_same.mpr fun c hc => ⟨_, rfl, h8 c hc⟩
      · rcases h9 with h9 | h9
        · exact absurd (by rw [h9]; rfl) hp
        · exact h9

theorem encodesT_append {f g : List LRec} {t : Str} (h : f.all okT = true)
    (hg : T.Encodes Dec.std (fun _ => false) [] g t) :
    T.Encodes Dec.std (fun _ => false) [] (f ++ g) (text f ++ t) := by
  induction f with
  | nil => exact hg
  | cons r rs ih =>
    simp only [List.all_cons, Bool.and_eq_true] at h
    obtain ⟨h, hrs⟩ := h
    simp only [okT, Bool.and_eq_true, Bool.or_eq_true, decide_eq_true_eq, List.all_eq_true] at h
    obtain ⟨⟨⟨⟨⟨⟨h1, h2⟩, h3⟩, h4'⟩, h4⟩, h5⟩, h6⟩ := h
    rw [text, List.append_assoc]
    refine .cons (c := headT r) (body := bodyT r) ⟨⟨h1, h2, h3⟩, _, rfl, h4', h4⟩ ?_
      (fun hf => by cases hf) (ih hrs)
    refine ⟨r.pre.map segT, _, rfl, ?_, ?_⟩
    · rw [List.forall₂_map_right_iff]
      refine List.forall₂_same.mpr fun s hs => ?_
      have := h5 s hs
      cases s with
      | recd k fs =>
        simp only [Bool.and_eq_true, decide_eq_true_eq] at this
        exact ⟨_, rfl, this.1, this.2⟩
      | text t => exact ⟨fun c hc => by simpa using List.all_eq_true.mp this c hc, rfl⟩
    · rcases h6 with ⟨hv, hp⟩ | ⟨⟨⟨hv, hl⟩, hn⟩, hd⟩
      · rw [if_pos hv, hv, hp]
        exact ⟨[], .nil, rfl, by simp, by simp, fun h => absurd rfl h⟩
      · rw [if_neg hv]
        refine ⟨[r.vals ++ r.pad], .cons ⟨_, rfl, hn, hd⟩ .nil, by simp, by simp, ?_, fun _ => ?_⟩
        · simpa using hl
        · simpa using List.length_pos_iff.mpr hv

theorem encodesT {f : List LRec} (h : f.all okT = true) :
    T.Encodes Dec.std (fun _ => false) [] f (text f) := by
  have := encodesT_append h .nil
  rwa [List.append_nil, List.append_nil] at this

theorem onDisk : Encoded Dec.std (fun _ => false) file (.unformatted (75 :: bytes file)) ∧
    Encoded Dec.std (fun _ => false) file (.formatted (text file)) :=
  ⟨.unformatted (encodesU (by decide +kernel)), .formatted (encodesT (by decide +kernel))⟩

/-- the file is superelement 5, a model file (`T5.FEM`) -/
theorem job : Job none (fun _ => false) (fun _ => none) file outs names (.top "" "T") 5 {}
    "FIRSTLEVEL" "STRUCTURAL" none where
  accepted := accepted _
  sel := by decide
  gives := ⟨_, rfl, .inl ⟨rfl, rfl⟩⟩
  allows := by
    intro o ho hn
    exfalso
    revert o
    decide +kernel
  hier := trivial
  free := fun _ _ => rfl
  classified := .modAlone (by decide) (by decide +kernel)

/-- the state of the module before the first file -/
theorem clean : Clean (.top "" "T") (fun _ => none) {} { g := { filetypeid := "T" } } :=
  ⟨rfl, rfl, rfl, fun _ => rfl, rfl, rfl, rfl, rfl, rfl, rfl⟩

/-! ### a results file -/

/-- result points, stress components, a real result case with node and element results, a wave
reference -/
def resFile : List LRec := [
  ⟨"IDENT", [.rat 1, .rat 5, .rat 3, .rat 0], [], 0, [], []⟩,
  ⟨"RDPOINTS", [.rat 9, .rat 1, .rat 1, .rat 1], [], 0, [.rat 15, .rat 2, .rat 0, .rat 0, .rat 0], []⟩,
  ⟨"RDSTRESS", [.rat 5, .rat 1, .rat 2, .rat 3], [], 0, [.rat 4], []⟩,
  ⟨"RDRESREF", [.rat 7, .rat 1, .rat 1, .rat 0], [], 0, [.rat 0, .rat 0, .rat 0], []⟩,
  ⟨"RVNODDIS", [.rat 7, .rat 1, .rat 1, .rat 0], [], 0, [.rat 0, .rat 3, .rat 4], []⟩,
  ⟨"RVSTRESS", [.rat 9, .rat 1, .rat 1, .rat 1], [], 0, [.rat 1, .rat 5, .rat 6, .rat 7, .rat 8], []⟩,
  ⟨"WDRESREF", [.rat 7, .rat 1, .rat 1, .rat 1], [], 0, [.rat 1, .rat 6, .rat 7], []⟩,
  ⟨"IEND", [.rat 0, .rat 0, .rat 0, .rat 0], [], 0, [], []⟩]

/-- what is added to the tables -/
def resOuts : List Added := [
  ⟨"IDENT", true, [.sc (.int 1), .sc (.int 5), .sc (.int 3)], []⟩,
  ⟨"RDPOINTS", true, [.sc (.int 9), .sc (.int 1), .sc (.int 1), .sc (.int 1), .sc (.int 15),
    .sc (.int 2), .sc (.int 0), .sc (.int 0), .sc (.int 0)], [some [], some []]⟩,
  ⟨"RDSTRESS", true, [.sc (.int 5), .sc (.int 1), .sc (.int 2)],
    [some [.sc (.int 3), .sc (.int 4)]]⟩,
  ⟨"RDRESREF", true, [.sc (.int 7), .sc (.int 1), .sc (.int 1), .sc (.int 0), .sc (.int 0),
    .sc (.int 0), .sc (.int 0)], [some []]⟩,
  ⟨"RVNODDIS", true, [.sc (.int 7), .sc (.int 1), .sc (.int 1), .sc (.int 0), .sc (.int 0)],
    [some [.sc (.flt (.rat 3)), .sc (.flt (.rat 4))]]⟩,
  ⟨"RVSTRESS", true, [.sc (.int 9), .sc (.int 1), .sc (.int 1), .sc (.int 1), .sc (.int 1)],
    [some [.sc (.flt (.rat 5)), .sc (.flt (.rat 6)), .sc (.flt (.rat 7)), .sc (.flt (.rat 8))]]⟩,
  ⟨"WDRESREF", true, [.sc (.int 7), .sc (.int 1), .sc (.int 1), .sc (.int 1)],
    [some [.vec [.flt (.rat 6), .flt (.rat 7)]], none, none]⟩]

/-- the record types read -/
def resNames : List String :=
  ["IDENT", "RDPOINTS", "RDSTRESS", "RDRESREF", "RVNODDIS", "RVSTRESS", "WDRESREF", "IEND"]

theorem resAccepted (sk : LRec → Bool) :
    Accepts none sk (fun _ => none) none [] resFile resOuts resNames := by
  have nv : ∀ {n : String} {x : PyF} {t : List PyF} {p sk v d}, x.ltZero = false →
      NotVoid ⟨n, x :: t, p, sk, v, d⟩ := fun h => ⟨_, _, rfl, h⟩
  have fo : ∀ {r : LRec}, r.name ≠ "SCONMESH" → FirstOK r := fun h h' => absurd h' h
  have int : ∀ {x : PyF} (n : Int), x.toInt = .ok n → HasInt x n := fun n h => toInt_hasInt h
  unfold resFile resOuts resNames
  refine .ident rfl trivial (nv (by decide +kernel)) ?_ ?_
  · exact ⟨_, lay "IDENT", .ident (int 1 (by decide +kernel)) (int 5 (by decide +kernel))
      (int 3 (by decide +kernel)), by decide +kernel, rfl, rfl, rfl, by stored, by stored⟩
  have pts : ∀ pad, IsPoints ⟨"RDPOINTS", [.rat 9, .rat 1, .rat 1, .rat 1], [], 0,
      [.rat 15, .rat 2, .rat 0, .rat 0, .rat 0], pad⟩ ⟨1, 1, 1, 2, 0, 0, 0, 0, 0⟩ := fun pad =>
    ⟨rfl, by decide, by decide, _, _, _, _, _, _, _, _, _, _, rfl, rfl,
      int 1 (by decide +kernel), int 1 (by decide +kernel), int 1 (by decide +kernel),
      int 2 (by decide +kernel), int 0 (by decide +kernel), int 0 (by decide +kernel),
      int 0 (by decide +kernel)⟩
  refine .first (by simp) (by simp) trivial (nv (by decide +kernel)) (fo (by simp)) ?_ ?_
  · exact ⟨_, lay "RDPOINTS", .rdpoints (pts := []) (xs := []) (p := ⟨1, 1, 1, 2, 0, 0, 0, 0, 0⟩)
      (pts _) .nil .nil rfl, by decide +kernel, rfl, rfl, rfl, by stored, by stored⟩
  refine .first (by simp) (by simp) trivial (nv (by decide +kernel)) (fo (by simp)) ?_ ?_
  · exact ⟨_, lay "RDSTRESS", .compdef (by simp) (int 1 (by decide +kernel))
      (int 2 (by decide +kernel)), by decide +kernel, rfl, rfl, rfl, by stored, by stored⟩
  refine .first (by simp) (by simp) trivial (nv (by decide +kernel)) (fo (by simp)) ?_ ?_
  · exact ⟨_, lay "RDRESREF", .rdresref (refs := []) (rvs := []) (int 1 (by decide +kernel))
      (int 0 (by decide +kernel)) (int 0 (by decide +kernel)) ⟨[], by simp, rfl, rfl⟩ rfl,
      by decide +kernel, rfl, rfl, rfl, by stored, by stored⟩
  have cplx : ∀ r past, r = (⟨"RDRESREF", [.rat 7, .rat 1, .rat 1, .rat 0], [], 0,
      [.rat 0, .rat 0, .rat 0], []⟩ : LRec) → Latest (DeclCplx 1) (r :: past) 0 := by
    rintro r past rfl
    exact .here ⟨rfl, _, _, _, _, _, _, _, _, rfl, rfl, int 1 (by decide +kernel),
      int 0 (by decide +kernel)⟩
  refine .first (by simp) (by simp) trivial (nv (by decide +kernel)) (fo (by simp)) ?_ ?_
  · exact ⟨_, lay "RVNODDIS", .rvnod (n := 7) (i := 1) (cplx := 0) (by simp)
      (int 7 (by decide +kernel)) (int 1 (by decide +kernel)) (cplx _ _ rfl) (by decide) rfl,
      by decide +kernel, rfl, rfl, rfl, by stored, by stored⟩
  refine .first (by simp) (by simp) trivial (nv (by decide +kernel)) (fo (by simp)) ?_ ?_
  · refine ⟨_, lay "RVSTRESS", .rvelm (i := 1) (j := 1) (k := 1) (l := 1) (cplx := 0) (nsp := 2)
      (len := 2) (by simp) (int 1 (by decide +kernel)) (int 1 (by decide +kernel))
      (int 1 (by decide +kernel)) (int 1 (by decide +kernel)) ?_ ?_ ?_ rfl,
      by decide +kernel, rfl, rfl, rfl, by stored, by stored⟩
    · refine .earlier ?_ (.earlier ?_ (.earlier ?_ (.here ⟨_, pts _, rfl, rfl, rfl⟩)))
      all_goals
        rintro a' ⟨p, h, -⟩
        exact absurd h.1 (by simp)
    · refine .earlier ?_ (.earlier ?_ (.here ⟨by simp [Defines], _, _, _, _, rfl,
        int 1 (by decide +kernel), int 2 (by decide +kernel)⟩))
      all_goals
        rintro a' ⟨h, -⟩
        exact absurd h (by simp [Defines])
    · exact .earlier (fun a' h => absurd h.1 (by simp)) (cplx _ _ rfl)
  refine .first (by simp) (by simp) trivial (nv (by decide +kernel)) (fo (by simp)) ?_ ?_
  · refine ⟨_, lay "WDRESREF", .wdresref (n := 1) (m := 1)
      (ts := [(1, [vector [.rat 6, .rat 7]])]) (int 1 (by decide +kernel))
      (int 1 (by decide +kernel)) ?_
      (.given (vs := [vector [.rat 6, .rat 7]]) (by simp) (by simp)) (.absent (by simp))
      (.absent (by simp)),
      by decide +kernel, rfl, rfl, rfl, by stored, ?_⟩
    · exact .cons (d := [.rat 6, .rat 7]) (l := []) (int 1 (by decide +kernel))
        ⟨[[.rat 6, .rat 7]], by simp, rfl, rfl⟩ rfl .nil
    · refine ⟨.cons (.cons ?_ .nil) (.cons trivial (.cons trivial .nil)), rfl, rfl⟩
      exact Stored.vec (.cons (.flt (rounds_of (by decide +kernel)))
        (.cons (.flt (rounds_of (by decide +kernel))) .nil))
  exact .stop trivial ⟨rfl, _, _, rfl, rfl⟩

theorem resOnDisk : Encoded Dec.std (fun _ => false) resFile (.unformatted (75 :: bytes resFile)) :=
  .unformatted (encodesU (by decide +kernel))

/-- the file is superelement 5, a results file (`R5.SIU`) -/
theorem resJob : Job none (fun _ => false) (fun _ => none) resFile resOuts resNames
    (.top "" "R") 5 {} "FIRSTLEVEL" "STRUCTURAL" (some none) where
  accepted := resAccepted _
  sel := by decide
  gives := ⟨_, rfl, .inl ⟨rfl, rfl⟩⟩
  allows := by
    intro o ho hn
    exfalso
    revert o
    decide +kernel
  hier := trivial
  free := fun _ _ => rfl
  classified := .resAlone (by decide +kernel)

theorem resClean : Clean (.top "" "R") (fun _ => none) {} { g := { filetypeid := "R" } } :=
  ⟨rfl, rfl, rfl, fun _ => rfl, rfl, rfl, rfl, rfl, rfl, rfl⟩

end Verif.Parse.Demo
