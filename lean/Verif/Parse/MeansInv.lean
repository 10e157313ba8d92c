import Verif.Parse.Convert
/-!
# What a record of a given type contributes: inversion of `Means`
-/

namespace Verif.Parse
open Verif Verif.Seq

theorem disj {L L' : List String} {x : String} (h : x ∈ L') (d : ∀ y ∈ L', y ∉ L) : x ∈ L → False :=
  d x h

theorem disj3 {L : List String} {T : List (String × Nat × Nat)} {x : String} {n k : Nat}
    (h : (x, n, k) ∈ T) (d : ∀ y ∈ T, y.1 ∉ L) : x ∈ L → False := d _ h

/-- discharge the layouts of other record types -/
macro "other_types" hn:ident : tactic =>
  `(tactic| all_goals (try dsimp only at $hn:ident) <;> first
    | exact absurd $hn (by decide)
    | (exfalso; revert $hn; apply disj; assumption; decide)
    | (exfalso; revert $hn; apply disj3; assumption; decide))

section
variable {e0 : Int → Option Int} {past : List LRec} {next : Option LRec} {r : LRec} {e : Entry}

theorem means_fixed (h : Means e0 past next r e) {n k : Nat} (hf : (r.name, n, k) ∈ fixedTypes) :
    r.pre = [] ∧ (r.vals.length = n - 4 ∨ r.vals.length < n - 4 ∧ next = some endMark) ∧
      e = ⟨numbers (fit n (r.head ++ r.vals)), []⟩ := by
  have hn : r.name ∈ fixedTypes.map (·.1) := List.mem_map.mpr ⟨_, hf, rfl⟩
  cases h
  case fixed h1 h2 h3 =>
    have : ∀ a ∈ fixedTypes, ∀ b ∈ fixedTypes, a.1 = b.1 → a = b := by decide
    have := this _ h1 _ hf rfl
    simp only [Prod.mk.injEq, true_and] at this
    obtain ⟨rfl, rfl⟩ := this
    exact ⟨rfl, .inl h2, rfl⟩
  case fixedCut h1 h2 h3 =>
    have : ∀ a ∈ fixedTypes, ∀ b ∈ fixedTypes, a.1 = b.1 → a = b := by decide
    have := this _ h1 _ hf rfl
    simp only [Prod.mk.injEq, true_and] at this
    obtain ⟨rfl, rfl⟩ := this
    exact ⟨rfl, .inr ⟨h2, h3⟩, rfl⟩
  all_goals clear hf
  other_types hn

theorem means_optional (h : Means e0 past next r e) {n m : Nat}
    (hf : (r.name, n, m) ∈ optionalTypes) :
    r.pre = [] ∧ e = ⟨numbers (fit n (r.head ++ r.vals)), []⟩ ∧
      (r.vals.length = n - 4 ∨ r.vals.length = n - 4 - m ∧ r.pad = [] ∧
        (∃ nx, next = some nx ∧ nx.name ∈ knownNames) ∨
        r.vals.length < n - 4 ∧ r.pad = [] ∧ next = some endMark) := by
  have hn : r.name ∈ optionalTypes.map (·.1) := List.mem_map.mpr ⟨_, hf, rfl⟩
  have uniq : ∀ a ∈ optionalTypes, ∀ b ∈ optionalTypes, a.1 = b.1 → a = b := by decide
  cases h
  case optPresent h1 h2 =>
    have := uniq _ h1 _ hf rfl
    simp only [Prod.mk.injEq, true_and] at this
    obtain ⟨rfl, rfl⟩ := this
    exact ⟨rfl, rfl, .inl h2⟩
  case optAbsent h1 h2 h4 h5 =>
    have := uniq _ h1 _ hf rfl
    simp only [Prod.mk.injEq, true_and] at this
    obtain ⟨rfl, rfl⟩ := this
    exact ⟨rfl, rfl, .inr (.inl ⟨h2, rfl, _, h4, h5⟩)⟩
  case optCut h1 h2 h3 =>
    have := uniq _ h1 _ hf rfl
    simp only [Prod.mk.injEq, true_and] at this
    obtain ⟨rfl, rfl⟩ := this
    exact ⟨rfl, rfl, .inr (.inr ⟨h2, rfl, h3⟩)⟩
  all_goals clear hf uniq
  other_types hn

theorem means_gelmnt1 (h : Means e0 past next r e) (hn : r.name ∈ ["GELMNT1"]) :
    ∃ a b c d elno ty, r.head = [a, b, c, d] ∧ HasInt b elno ∧ HasInt c ty ∧
      NodeCount ty r.vals.length ∧ e = ⟨numbers [a, b, c, d], [some (numbers r.vals)]⟩ := by
  cases h
  case gelmnt1 h1 h2 h3 => exact ⟨_, _, _, _, _, _, rfl, h1, h2, h3, rfl⟩
  other_types hn

theorem means_gelref1 (h : Means e0 past next r e) (hn : r.name ∈ ["GELREF1"]) :
    ∃ a b c d rec2 x0 x1 x2 x3 geo fix ecc trans elno ty nn, r.head = [a, b, c, d] ∧
      r.pre = [.recd 8 rec2, .recd 8 [x0, x1, x2, x3]] ∧ r.vals = geo ++ fix ++ ecc ++ trans ∧
      HasInt a elno ∧ TypeOf e0 past elno ty ∧ NodeCount ty nn ∧
      Refs nn x0 geo ∧ Refs nn x1 fix ∧ Refs nn x2 ecc ∧ Refs nn x3 trans ∧
      e = ⟨numbers ([a, b, c, d] ++ rec2 ++ [x0, x1, x2, x3]),
          [some (numbers geo), some (numbers fix), some (numbers ecc), some (numbers trans)]⟩ := by
  cases h
  case gelref1 h1 h2 h3 h4 h5 h6 h7 =>
    exact ⟨_, _, _, _, _, _, _, _, _, _, _, _, _, _, _, _, rfl, rfl, rfl, h1, h2, h3, h4, h5, h6,
      h7, rfl⟩
  other_types hn

theorem means_rvnod (h : Means e0 past next r e) (hn : r.name ∈ ["RVNODACC", "RVNODDIS", "RVNODVEL"]) :
    ∃ a b c d x n i cplx res, r.head = [a, b, c, d] ∧ r.vals = x :: res ∧ HasInt a n ∧ HasInt b i ∧
      Latest (DeclCplx i) past cplx ∧ (res.length : Int) = (n - 5) / (cplx + 1) ∧
      e = ⟨numbers [a, b, c, d, x], [some (numbers res)]⟩ := by
  cases h
  case rvnod h1 h2 h3 h4 h5 h6 => exact ⟨_, _, _, _, _, _, _, _, _, rfl, rfl, h2, h3, h4, h6, rfl⟩
  other_types hn

theorem means_rvelm (h : Means e0 past next r e) (hn : r.name ∈ ["RVFORCES", "RVSTRAIN", "RVSTRESS"]) :
    ∃ a b c d x i j k l cplx nsp len res, r.head = [a, b, c, d] ∧ r.vals = x :: res ∧ HasInt b i ∧
      HasInt c j ∧ HasInt d k ∧ HasInt x l ∧ Latest (DeclNsp k j) past nsp ∧
      Latest (DeclLen r.name l) past len ∧ Latest (DeclCplx i) past cplx ∧
      (res.length : Int) = nsp * len * (cplx + 1) ∧
      e = ⟨numbers [a, b, c, d, x], [some (numbers res)]⟩ := by
  cases h
  case rvelm h1 h2 h3 h4 h5 h6 h7 h8 h9 =>
    exact ⟨_, _, _, _, _, _, _, _, _, _, _, _, _, rfl, rfl, h2, h3, h4, h5, h6, h7, h8, h9, rfl⟩
  other_types hn

theorem means_wdresref (h : Means e0 past next r e) (hn : r.name ∈ ["WDRESREF"]) :
    ∃ a b c d n m ts dir freq time, r.head = [a, b, c, d] ∧ HasInt c n ∧ HasInt d m ∧
      RefTypes n.toNat m.toNat r.vals ts ∧ PairsFor 1 ts dir ∧ PairsFor 2 ts freq ∧
      PairsFor 3 ts time ∧ e = ⟨numbers [a, b, c, d], [dir, freq, time]⟩ := by
  cases h
  case wdresref h1 h2 h3 h4 h5 h6 =>
    exact ⟨_, _, _, _, _, _, _, _, _, _, rfl, h1, h2, h3, h4, h5, h6, rfl⟩
  other_types hn

end

/-! ### the records read before -/

/-- the meaning of a record depends on the records before it, and on earlier files, through
declarations only -/
theorem Means.change {e0 e0' : Int → Option Int} {past past' : List LRec} {next : Option LRec}
    {r : LRec} {e : Entry} (h : Means e0 past next r e)
    (ht : r.name = "GELREF1" → ∀ {k t}, TypeOf e0 past k t → TypeOf e0' past' k t)
    (hg : r.name = "RDIELCOR" → ∀ {i}, (∀ {g}, Latest (DeclGrid i) past g →
      Latest (DeclGrid i) past' g) ∧ (Never (DeclGrid i) past → Never (DeclGrid i) past'))
    (hc : r.name ∈ ["RVNODACC", "RVNODDIS", "RVNODVEL"] ∨
      r.name ∈ ["RVFORCES", "RVSTRAIN", "RVSTRESS"] → ∀ {i n}, Latest (DeclCplx i) past n →
      Latest (DeclCplx i) past' n)
    (hp : r.name ∈ ["RVFORCES", "RVSTRAIN", "RVSTRESS"] → ∀ {i j n}, Latest (DeclNsp i j) past n →
      Latest (DeclNsp i j) past' n)
    (hl : r.name ∈ ["RVFORCES", "RVSTRAIN", "RVSTRESS"] → ∀ {l n},
      Latest (DeclLen r.name l) past n → Latest (DeclLen r.name l) past' n) :
    Means e0' past' next r e := by
  cases h
  case fixed h1 h2 h3 => exact .fixed h1 h2 h3
  case optPresent h1 h2 => exact .optPresent h1 h2
  case optAbsent h1 h2 h3 h4 => exact .optAbsent h1 h2 h3 h4
  case fixedCut h1 h2 h3 => exact .fixedCut h1 h2 h3
  case optCut h1 h2 h3 => exact .optCut h1 h2 h3
  case hierarch h1 => exact .hierarch h1
  case ident h1 h2 h3 => exact .ident h1 h2 h3
  case text h1 h2 h3 => exact .text h1 h2 h3
  case td h1 h2 h3 h4 h5 h6 h7 => exact .td h1 h2 h3 h4 h5 h6 h7
  case gelmnt1 h1 h2 h3 => exact .gelmnt1 h1 h2 h3
  case gelmnt2 h1 h2 => exact .gelmnt2 h1 h2
  case gelref1 h1 h2 h3 h4 h5 h6 h7 => exact .gelref1 h1 (ht rfl h2) h3 h4 h5 h6 h7
  case gsetmemb h1 => exact .gsetmemb h1
  case sconcept7 h1 h2 h3 => exact .sconcept7 h1 h2 h3
  case sconcept2 h1 => exact .sconcept2 h1
  case sconmesh h1 => exact .sconmesh h1
  case bnbcd h1 h2 h3 => exact .bnbcd h1 h2 h3
  case bldep h1 h2 => exact .bldep h1 h2
  case beuslo h1 h2 h3 => exact .beuslo h1 h2 h3
  case brigac h1 h2 h3 => exact .brigac h1 h2 h3
  case xsuptran h1 h2 h3 h4 => exact .xsuptran h1 h2 h3 h4
  case compdef h1 h2 h3 => exact .compdef h1 h2 h3
  case rdpoints h1 h2 h3 h4 => exact .rdpoints h1 h2 h3 h4
  case rdielcor h1 h2 h3 h4 h5 h6 h7 h8 =>
    exact .rdielcor h1 (h2.imp (fun h => (hg rfl).1 h)
      fun h => ⟨(hg rfl).2 h.1, h.2⟩) h3 h4 h5 h6 h7 h8
  case rdresref h1 h2 h3 h4 h5 => exact .rdresref h1 h2 h3 h4 h5
  case triples h1 h2 h3 h4 => exact .triples h1 h2 h3 h4
  case rvnod h1 h2 h3 h4 h5 h6 => exact .rvnod h1 h2 h3 (hc (.inl h1) h4) h5 h6
  case rvelm h1 h2 h3 h4 h5 h6 h7 h8 h9 => exact .rvelm h1 h2 h3 h4 h5 (hp h1 h6) (hl h1 h7) (hc (.inr h1) h8) h9
  case wdresref h1 h2 h3 h4 h5 h6 => exact .wdresref h1 h2 h3 h4 h5 h6
  case wglobdefInf h1 => exact .wglobdefInf h1
  case wglobdef h1 h2 => exact .wglobdef h1 h2
  case wbody h1 h2 => exact .wbody h1 h2
  case w1matrix h1 => exact .w1matrix h1
  case six h1 h2 h3 => exact .six h1 h2 h3
  case w1sforce h1 h2 => exact .w1sforce h1 h2
  case w2hdrift => exact .w2hdrift
  case w2mdrift h1 => exact .w2mdrift h1
  case wfkpoint => exact .wfkpoint
  case wfluidknC h1 h2 h3 h4 => exact .wfluidknC h1 h2 h3 h4
  case wfluidknR h1 => exact .wfluidknR h1
  case wsection => exact .wsection
  case wsurface h1 h2 h3 h4 h5 h6 => exact .wsurface h1 h2 h3 h4 h5 h6
  case winput h1 => exact .winput h1
  case w1panpreC h1 h2 => exact .w1panpreC h1 h2
  case w1panpreR h1 => exact .w1panpreR h1

/-- a meaning found without element types of earlier files does not depend on them -/
theorem Means.any_history {past : List LRec} {next : Option LRec} {r : LRec} {e : Entry}
    (h : Means (fun _ => none) past next r e) (e0 : Int → Option Int) : Means e0 past next r e := by
  refine h.change (fun _ {k t} h2 => ?_) (fun _ => ⟨id, id⟩) (fun _ => id) (fun _ => id) (fun _ => id)
  rcases h2 with h2 | ⟨_, h2⟩
  · exact .inl h2
  · cases h2

/-! ### reference records -/

theorem flatten_inj {α : Type} {m : Nat} : ∀ {a b : List (List α)}, a.length = b.length →
    (∀ r ∈ a, r.length = m) → (∀ r ∈ b, r.length = m) → a.flatten = b.flatten → a = b
  | [], [], _, _, _, _ => rfl
  | x :: a, y :: b, h1, h2, h3, h4 => by
    rw [List.flatten_cons, List.flatten_cons] at h4
    have hx := h2 x (by simp)
    have hy := h3 y (by simp)
    obtain ⟨e1, e2⟩ := List.append_inj h4 (by omega)
    rw [e1, flatten_inj (by simpa using h1) (fun r hr => h2 r (by simp [hr]))
      (fun r hr => h3 r (by simp [hr])) e2]

theorem groups_length {d : List PyF} {vs : List Val} (h : Groups 2 d vs) :
    d.length = 2 * vs.length := by
  obtain ⟨gs, h1, rfl, rfl⟩ := h
  induction gs with
  | nil => rfl
  | cons g gs ih =>
    have := h1 g (by simp)
    have := ih fun g hg => h1 g (by simp [hg])
    simp at *
    omega

theorem groups_unique {d : List PyF} {vs ws : List Val} (h1 : Groups 2 d vs) (h2 : Groups 2 d ws) :
    vs = ws := by
  have h3 := groups_length h1
  have h4 := groups_length h2
  obtain ⟨gs, a1, a2, rfl⟩ := h1
  obtain ⟨gs', b1, b2, rfl⟩ := h2
  have : gs = gs' := flatten_inj (m := 2) (by simp at h3 h4; omega) a1 b1 (by rw [a2, b2])
  rw [this]

theorem refTypes_unique {n m : Nat} {q : List PyF} {ts ts' : List (Int × List Val)}
    (h : RefTypes n m q ts) (h' : RefTypes n m q ts') : ts = ts' := by
  induction h generalizing ts' with
  | nil => cases h'; rfl
  | @cons m l ts x ty d vs h1 h2 h3 _ ih =>
    generalize hq : x :: (d ++ l) = q at h'
    cases h' with
    | @cons _ l' ts' x' ty' d' vs' k1 k2 k3 k4 =>
      injection hq with e1 e2
      subst e1
      have g1 := groups_length h2
      have g2 := groups_length k2
      obtain ⟨rfl, rfl⟩ := List.append_inj e2 (by omega)
      rw [h1.unique k1, groups_unique h2 k2, ih k4]

/-- the last values of the record are missing; that this is so is seen from the record that
follows -/
def Short (r : LRec) : Prop :=
  ∃ n m, (r.name, n, m) ∈ optionalTypes ∧ r.vals.length = n - 4 - m

/-- values of a record of a fixed layout, or with optional fields, are missing -/
def Ragged (r : LRec) : Prop :=
  ∃ n k, (r.name, n, k) ∈ fixedTypes ++ optionalTypes ∧ r.vals.length < n - 4

/-- what a record means does not depend on the record that follows it, unless values are missing;
then only on whether that is known -/
theorem Means.otherNext {e0 : Int → Option Int} {past : List LRec} {next next' : Option LRec}
    {r : LRec} {e : Entry} (h : Means e0 past next r e)
    (he : next = some endMark → ¬ Ragged r)
    (hk : Short r → ∃ v, next' = some v ∧ v.name ∈ knownNames) : Means e0 past next' r e := by
  cases h
  case fixed h1 h2 h3 => exact .fixed h1 h2 h3
  case optPresent h1 h2 => exact .optPresent h1 h2
  case optAbsent h1 h2 h3 h4 =>
    obtain ⟨v, hv, hk'⟩ := hk ⟨_, _, h1, h2⟩
    exact .optAbsent h1 h2 hv hk'
  case fixedCut h1 h2 h3 => exact absurd ⟨_, _, List.mem_append_left _ h1, h2⟩ (he h3)
  case optCut h1 h2 h3 => exact absurd ⟨_, _, List.mem_append_right _ h1, h2⟩ (he h3)
  case hierarch h1 => exact .hierarch h1
  case ident h1 h2 h3 => exact .ident h1 h2 h3
  case text h1 h2 h3 => exact .text h1 h2 h3
  case td h1 h2 h3 h4 h5 h6 h7 => exact .td h1 h2 h3 h4 h5 h6 h7
  case gelmnt1 h1 h2 h3 => exact .gelmnt1 h1 h2 h3
  case gelmnt2 h1 h2 => exact .gelmnt2 h1 h2
  case gelref1 h1 h2 h3 h4 h5 h6 h7 => exact .gelref1 h1 h2 h3 h4 h5 h6 h7
  case gsetmemb h1 => exact .gsetmemb h1
  case sconcept7 h1 h2 h3 => exact .sconcept7 h1 h2 h3
  case sconcept2 h1 => exact .sconcept2 h1
  case sconmesh h1 => exact .sconmesh h1
  case bnbcd h1 h2 h3 => exact .bnbcd h1 h2 h3
  case bldep h1 h2 => exact .bldep h1 h2
  case beuslo h1 h2 h3 => exact .beuslo h1 h2 h3
  case brigac h1 h2 h3 => exact .brigac h1 h2 h3
  case xsuptran h1 h2 h3 h4 => exact .xsuptran h1 h2 h3 h4
  case compdef h1 h2 h3 => exact .compdef h1 h2 h3
  case rdpoints h1 h2 h3 h4 => exact .rdpoints h1 h2 h3 h4
  case rdielcor h1 h2 h3 h4 h5 h6 h7 h8 =>
    exact .rdielcor h1 h2 h3 h4 h5 h6 h7 h8
  case rdresref h1 h2 h3 h4 h5 => exact .rdresref h1 h2 h3 h4 h5
  case triples h1 h2 h3 h4 => exact .triples h1 h2 h3 h4
  case rvnod h1 h2 h3 h4 h5 h6 => exact .rvnod h1 h2 h3 h4 h5 h6
  case rvelm h1 h2 h3 h4 h5 h6 h7 h8 h9 => exact .rvelm h1 h2 h3 h4 h5 h6 h7 h8 h9
  case wdresref h1 h2 h3 h4 h5 h6 => exact .wdresref h1 h2 h3 h4 h5 h6
  case wglobdefInf h1 => exact .wglobdefInf h1
  case wglobdef h1 h2 => exact .wglobdef h1 h2
  case wbody h1 h2 => exact .wbody h1 h2
  case w1matrix h1 => exact .w1matrix h1
  case six h1 h2 h3 => exact .six h1 h2 h3
  case w1sforce h1 h2 => exact .w1sforce h1 h2
  case w2hdrift => exact .w2hdrift
  case w2mdrift h1 => exact .w2mdrift h1
  case wfkpoint => exact .wfkpoint
  case wfluidknC h1 h2 h3 h4 => exact .wfluidknC h1 h2 h3 h4
  case wfluidknR h1 => exact .wfluidknR h1
  case wsection => exact .wsection
  case wsurface h1 h2 h3 h4 h5 h6 => exact .wsurface h1 h2 h3 h4 h5 h6
  case winput h1 => exact .winput h1
  case w1panpreC h1 h2 => exact .w1panpreC h1 h2
  case w1panpreR h1 => exact .w1panpreR h1

/-- a formatted file may end behind the record -/
theorem Means.atEnd {e0 : Int → Option Int} {past : List LRec} {next : Option LRec}
    {r : LRec} {e : Entry} (h : Means e0 past next r e) : Means e0 past (some endMark) r e := by
  cases h
  case fixed h1 h2 h3 => exact .fixed h1 h2 h3
  case optPresent h1 h2 => exact .optPresent h1 h2
  case optAbsent h1 h2 h3 h4 =>
    refine .optCut h1 ?_ rfl
    have : ∀ t ∈ optionalTypes, t.2.1 - 4 - t.2.2 < t.2.1 - 4 := by decide
    rw [h2]
    exact this _ h1
  case fixedCut h1 h2 h3 => exact .fixedCut h1 h2 rfl
  case optCut h1 h2 h3 => exact .optCut h1 h2 rfl
  case hierarch h1 => exact .hierarch h1
  case ident h1 h2 h3 => exact .ident h1 h2 h3
  case text h1 h2 h3 => exact .text h1 h2 h3
  case td h1 h2 h3 h4 h5 h6 h7 => exact .td h1 h2 h3 h4 h5 h6 h7
  case gelmnt1 h1 h2 h3 => exact .gelmnt1 h1 h2 h3
  case gelmnt2 h1 h2 => exact .gelmnt2 h1 h2
  case gelref1 h1 h2 h3 h4 h5 h6 h7 => exact .gelref1 h1 h2 h3 h4 h5 h6 h7
  case gsetmemb h1 => exact .gsetmemb h1
  case sconcept7 h1 h2 h3 => exact .sconcept7 h1 h2 h3
  case sconcept2 h1 => exact .sconcept2 h1
  case sconmesh h1 => exact .sconmesh h1
  case bnbcd h1 h2 h3 => exact .bnbcd h1 h2 h3
  case bldep h1 h2 => exact .bldep h1 h2
  case beuslo h1 h2 h3 => exact .beuslo h1 h2 h3
  case brigac h1 h2 h3 => exact .brigac h1 h2 h3
  case xsuptran h1 h2 h3 h4 => exact .xsuptran h1 h2 h3 h4
  case compdef h1 h2 h3 => exact .compdef h1 h2 h3
  case rdpoints h1 h2 h3 h4 => exact .rdpoints h1 h2 h3 h4
  case rdielcor h1 h2 h3 h4 h5 h6 h7 h8 =>
    exact .rdielcor h1 h2 h3 h4 h5 h6 h7 h8
  case rdresref h1 h2 h3 h4 h5 => exact .rdresref h1 h2 h3 h4 h5
  case triples h1 h2 h3 h4 => exact .triples h1 h2 h3 h4
  case rvnod h1 h2 h3 h4 h5 h6 => exact .rvnod h1 h2 h3 h4 h5 h6
  case rvelm h1 h2 h3 h4 h5 h6 h7 h8 h9 => exact .rvelm h1 h2 h3 h4 h5 h6 h7 h8 h9
  case wdresref h1 h2 h3 h4 h5 h6 => exact .wdresref h1 h2 h3 h4 h5 h6
  case wglobdefInf h1 => exact .wglobdefInf h1
  case wglobdef h1 h2 => exact .wglobdef h1 h2
  case wbody h1 h2 => exact .wbody h1 h2
  case w1matrix h1 => exact .w1matrix h1
  case six h1 h2 h3 => exact .six h1 h2 h3
  case w1sforce h1 h2 => exact .w1sforce h1 h2
  case w2hdrift => exact .w2hdrift
  case w2mdrift h1 => exact .w2mdrift h1
  case wfkpoint => exact .wfkpoint
  case wfluidknC h1 h2 h3 h4 => exact .wfluidknC h1 h2 h3 h4
  case wfluidknR h1 => exact .wfluidknR h1
  case wsection => exact .wsection
  case wsurface h1 h2 h3 h4 h5 h6 => exact .wsurface h1 h2 h3 h4 h5 h6
  case winput h1 => exact .winput h1
  case w1panpreC h1 h2 => exact .w1panpreC h1 h2
  case w1panpreR h1 => exact .w1panpreR h1

end Verif.Parse
