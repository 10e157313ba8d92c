import Verif.Parse.Bodies
/-!
# The readers follow the specification of a record

`EnvInv` ties the dicts of the parser to what the records read so far declare; `means_run` collects
the lemmas of `Verif.Parse.Bodies`.
-/

namespace Verif.Parse
open Verif Verif.Seq

/-- the dicts hold what the records `past` declare -/
structure EnvInv (e0 : Int → Option Int) (past : List LRec) (env : Env) : Prop where
  elem : ∀ k t, TypeOf e0 past k t → env.elem k = some t
  grid : ∀ i g, Latest (DeclGrid i) past g →
    env.rdpoints i = some (g.1, (g.2.1 : Int), (g.2.2.1 : Int), (g.2.2.2 : Int))
  noGrid : ∀ i, Never (DeclGrid i) past → env.rdpoints i = none
  nsp : ∀ k j n, Latest (DeclNsp k j) past n → env.nsp (k, j) = some n
  cplx : ∀ i n, Latest (DeclCplx i) past n → env.rdresref i = some n
  len : ∀ rv i n, Latest (DeclLen rv i) past n → env.lenrec (rv, i) = some n
  elemNone : ∀ k, Never (DeclType k) past → e0 k = none → env.elem k = none
  nspNone : ∀ k j, Never (DeclNsp k j) past → env.nsp (k, j) = none
  cplxNone : ∀ i, Never (DeclCplx i) past → env.rdresref i = none
  lenNone : ∀ rv ∈ ["RVFORCES", "RVSTRAIN", "RVSTRESS"], ∀ i, Never (DeclLen rv i) past →
    env.lenrec (rv, i) = none

/-- there is a latest record with the property, or there is none at all -/
theorem latest_or_never {α : Type} (P : LRec → α → Prop) (past : List LRec) :
    (∃ a, Latest P past a) ∨ Never P past := by
  induction past with
  | nil => exact .inr fun r hr => by simp at hr
  | cons r past ih =>
    by_cases h : ∃ a, P r a
    · obtain ⟨a, h⟩ := h
      exact .inl ⟨a, .here h⟩
    · have h' : ∀ a, ¬ P r a := fun a ha => h ⟨a, ha⟩
      rcases ih with ⟨a, ih⟩ | ih
      · exact .inl ⟨a, .earlier h' ih⟩
      · refine .inr fun r' hr' a => ?_
        rcases List.mem_cons.mp hr' with rfl | hr'
        · exact h' a
        · exact ih r' hr' a

/-- the known element types -/
theorem EnvInv.elem_iff {e0 : Int → Option Int} {past : List LRec} {env : Env}
    (h : EnvInv e0 past env) (k t : Int) : env.elem k = some t ↔ TypeOf e0 past k t := by
  refine ⟨fun he => ?_, h.elem k t⟩
  rcases latest_or_never (DeclType k) past with ⟨a, h3⟩ | h3
  · have := h.elem k a (.inl h3)
    rw [he] at this
    cases this
    exact .inl h3
  · cases h4 : e0 k with
    | none => rw [h.elemNone k h3 h4] at he; cases he
    | some a =>
      have := h.elem k a (.inr ⟨h3, h4⟩)
      rw [he] at this
      cases this
      exact .inr ⟨h3, h4⟩

theorem EnvInv.init (e0 : Int → Option Int) : EnvInv e0 [] { elem := e0 } where
  elem k t h := by
    rcases h with h | h
    · cases h
    · exact h.2
  grid i g h := by cases h
  noGrid i _ := rfl
  nsp k j n h := by cases h
  cplx i n h := by cases h
  len rv i n h := by cases h
  elemNone k _ h := h
  nspNone k j _ := rfl
  cplxNone i _ := rfl
  lenNone rv _ i _ := rfl

theorem Never.tail {α : Type} {P : LRec → α → Prop} {r : LRec} {past : List LRec}
    (h : Never P (r :: past)) : Never P past := fun x hx => h x (by simp [hx])

theorem Latest.tail {α : Type} {P : LRec → α → Prop} {r : LRec} {past : List LRec} {a : α}
    (h : Latest P (r :: past) a) (hr : ∀ a, ¬ P r a) : Latest P past a := by
  cases h with
  | here h => exact absurd h (hr _)
  | earlier _ h => exact h

/-- names of the records that declare something -/
def declNames : List String :=
  ["GELMNT1", "RDPOINTS", "RDRESREF", "RDFORCES", "RDSTRAIN", "RDSTRESS"]

section
variable {e0 : Int → Option Int} {past : List LRec} {env : Env} {r : LRec}

theorem noType (h : r.name ≠ "GELMNT1") (k t : Int) : ¬ DeclType k r t := fun d => h d.1
theorem noGridR (h : r.name ≠ "RDPOINTS") (i : Int) (g) : ¬ DeclGrid i r g := by
  rintro ⟨p, hp, _⟩; exact h hp.1
theorem noNsp (h : r.name ≠ "RDPOINTS") (k j n : Int) : ¬ DeclNsp k j r n := by
  rintro ⟨p, hp, _⟩; exact h hp.1
theorem noCplx (h : r.name ≠ "RDRESREF") (i n : Int) : ¬ DeclCplx i r n := fun d => h d.1
theorem noLen (h : r.name ∉ ["RDFORCES", "RDSTRAIN", "RDSTRESS"]) (rv : String) (i n : Int) :
    ¬ DeclLen rv i r n := by
  rintro ⟨d, _⟩
  apply h
  simp only [Defines, List.mem_cons, Prod.mk.injEq, List.not_mem_nil, or_false] at d ⊢
  rcases d with d | d | d
  · exact .inl d.1
  · exact .inr (.inl d.1)
  · exact .inr (.inr d.1)

theorem TypeOf.tail {k t : Int} (h : TypeOf e0 (r :: past) k t) (hr : ∀ t, ¬ DeclType k r t) :
    TypeOf e0 past k t := by
  rcases h with h | h
  · exact .inl (h.tail hr)
  · exact .inr ⟨h.1.tail, h.2⟩

/-- a record that declares nothing -/
theorem EnvInv.skip (h : EnvInv e0 past env) (hr : r.name ∉ declNames)
    (g : Option (Int × Int × Int × Int)) : EnvInv e0 (r :: past) { env with grid := g } := by
  simp only [declNames, List.mem_cons, List.not_mem_nil, or_false, not_or] at hr
  obtain ⟨h1, h2, h3, h4⟩ := hr
  exact {
    elem := fun k t d => h.elem k t (d.tail (noType h1 k))
    grid := fun i g d => h.grid i g (d.tail (noGridR h2 i))
    noGrid := fun i d => h.noGrid i d.tail
    nsp := fun k j n d => h.nsp k j n (d.tail (noNsp h2 k j))
    cplx := fun i n d => h.cplx i n (d.tail (noCplx h3 i))
    len := fun rv i n d => h.len rv i n (d.tail (noLen (by simpa using h4) rv i))
    elemNone := fun k d => h.elemNone k d.tail
    nspNone := fun k j d => h.nspNone k j d.tail
    cplxNone := fun i d => h.cplxNone i d.tail
    lenNone := fun rv hv i d => h.lenNone rv hv i d.tail }

theorem EnvInv.skip' (h : EnvInv e0 past env) (hr : r.name ∉ declNames) :
    EnvInv e0 (r :: past) env := h.skip hr env.grid

theorem EnvInv.regrid (h : EnvInv e0 past env) (g : Option (Int × Int × Int × Int)) :
    EnvInv e0 past { env with grid := g } :=
  ⟨h.elem, h.grid, h.noGrid, h.nsp, h.cplx, h.len, h.elemNone, h.nspNone, h.cplxNone, h.lenNone⟩

theorem upd_same {α β : Type} [DecidableEq α] (d : α → Option β) (k : α) (v : β) :
    upd d k v k = some v := by simp [upd]

theorem upd_other {α β : Type} [DecidableEq α] (d : α → Option β) {k k' : α} (v : β)
    (h : k' ≠ k) : upd d k v k' = d k' := by simp [upd, h]

theorem EnvInv.gelmnt1 (h : EnvInv e0 past env) {a b c d : PyF} {elno ty : Int}
    (hn : r.name = "GELMNT1") (hh : r.head = [a, b, c, d]) (hb : HasInt b elno)
    (hc : HasInt c ty) : EnvInv e0 (r :: past) { env with elem := upd env.elem elno ty } := by
  have hd : DeclType elno r ty := ⟨hn, a, b, c, d, hh, hb, hc⟩
  have hu : ∀ k t, DeclType k r t → k = elno ∧ t = ty := by
    rintro k t ⟨_, a', b', c', d', h1, h2, h3⟩
    rw [hh] at h1
    simp only [List.cons.injEq, and_true] at h1
    obtain ⟨rfl, rfl, rfl, rfl⟩ := h1
    exact ⟨h2.unique hb, h3.unique hc⟩
  exact {
    elem := fun k t d => by
      by_cases hk : k = elno
      · subst hk
        rcases d with d | d
        · cases d with
          | here d => obtain ⟨_, rfl⟩ := hu _ _ d; exact upd_same _ _ _
          | earlier d _ => exact absurd hd (d _)
        · exact absurd hd (d.1 r (by simp) _)
      · show upd env.elem elno ty k = some t
        rw [upd_other _ _ hk]
        exact h.elem k t (d.tail (fun t dt => hk (hu _ _ dt).1))
    grid := fun i g d => h.grid i g (d.tail (noGridR (by rw [hn]; decide) i))
    noGrid := fun i d => h.noGrid i d.tail
    nsp := fun k j n d => h.nsp k j n (d.tail (noNsp (by rw [hn]; decide) k j))
    cplx := fun i n d => h.cplx i n (d.tail (noCplx (by rw [hn]; decide) i))
    len := fun rv i n d => h.len rv i n (d.tail (noLen (by rw [hn]; decide) rv i))
    elemNone := fun k d h0 => by
      show upd env.elem elno ty k = none
      by_cases hk : k = elno
      · subst hk; exact absurd hd (d r (by simp) _)
      · rw [upd_other _ _ hk]; exact h.elemNone k d.tail h0
    nspNone := fun k j d => h.nspNone k j d.tail
    cplxNone := fun i d => h.cplxNone i d.tail
    lenNone := fun rv hv i d => h.lenNone rv hv i d.tail }

theorem IsPoints.unique {p q : PointsRec} (hp : IsPoints r p) (hq : IsPoints r q) : p = q := by
  obtain ⟨_, i1, i2, a, b, c, d, e, f, g, h, i, more, hh, hv, v1, v2, v3, v4, v5, v6, v7⟩ := hp
  obtain ⟨_, j1, j2, a', b', c', d', e', f', g', h', i', more', hh', hv', w1, w2, w3, w4, w5, w6,
    w7⟩ := hq
  rw [hh] at hh'
  rw [hv] at hv'
  simp only [List.cons.injEq, and_true] at hh' hv'
  obtain ⟨rfl, rfl, rfl, rfl⟩ := hh'
  obtain ⟨rfl, rfl, rfl, rfl, rfl, rfl⟩ := hv'
  have u1 := v1.unique w1
  have u2 := v2.unique w2
  have u3 := v3.unique w3
  have u4 := v4.unique w4
  have u5 := v5.unique w5
  have u6 := v6.unique w6
  have u7 := v7.unique w7
  cases p; cases q
  simp only at *
  simp only [PointsRec.mk.injEq]
  refine ⟨u1, u2, u3, u4, ?_, ?_, ?_, u6, u7⟩ <;> omega

theorem EnvInv.points (h : EnvInv e0 past env) {p : PointsRec} (hp : IsPoints r p) :
    EnvInv e0 (r :: past) { env with
      rdpoints := upd env.rdpoints p.icoref (p.nlay, (p.nok : Int), (p.noj : Int), (p.noi : Int)),
      nsp := upd env.nsp (p.ispalt, p.iielno) p.nsp } := by
  have hn := hp.1
  have hg : DeclGrid p.icoref r (p.nlay, p.nok, p.noj, p.noi) := ⟨p, hp, rfl, rfl⟩
  have hs : DeclNsp p.ispalt p.iielno r p.nsp := ⟨p, hp, rfl, rfl, rfl⟩
  exact {
    elem := fun k t d => h.elem k t (d.tail (noType (by rw [hn]; decide) k))
    grid := fun i g d => by
      show upd env.rdpoints p.icoref _ i = _
      by_cases hi : i = p.icoref
      · subst hi
        rw [upd_same]
        cases d with
        | here d =>
          obtain ⟨q, hq, _, rfl⟩ := d
          rw [hp.unique hq]
        | earlier d _ => exact absurd hg (d _)
      · rw [upd_other _ _ hi]
        refine h.grid i g (d.tail ?_)
        rintro g ⟨q, hq, hqi, _⟩
        rw [hp.unique hq] at hi
        exact hi hqi.symm
    noGrid := fun i d => by
      show upd env.rdpoints p.icoref _ i = none
      by_cases hi : i = p.icoref
      · subst hi; exact absurd hg (d r (by simp) _)
      · rw [upd_other _ _ hi]; exact h.noGrid i d.tail
    nsp := fun k j n d => by
      show upd env.nsp (p.ispalt, p.iielno) p.nsp (k, j) = some n
      by_cases hi : (k, j) = (p.ispalt, p.iielno)
      · rw [hi, upd_same]
        rw [Prod.mk.injEq] at hi
        obtain ⟨rfl, rfl⟩ := hi
        cases d with
        | here d =>
          obtain ⟨q, hq, _, _, rfl⟩ := d
          rw [hp.unique hq]
        | earlier d _ => exact absurd hs (d _)
      · rw [upd_other _ _ hi]
        refine h.nsp k j n (d.tail ?_)
        rintro m ⟨q, hq, rfl, rfl, _⟩
        rw [hp.unique hq] at hi
        exact hi rfl
    cplx := fun i n d => h.cplx i n (d.tail (noCplx (by rw [hn]; decide) i))
    len := fun rv i n d => h.len rv i n (d.tail (noLen (by rw [hn]; decide) rv i))
    elemNone := fun k d => h.elemNone k d.tail
    nspNone := fun k j d => by
      show upd env.nsp (p.ispalt, p.iielno) p.nsp (k, j) = none
      by_cases hi : (k, j) = (p.ispalt, p.iielno)
      · rw [Prod.mk.injEq] at hi
        obtain ⟨rfl, rfl⟩ := hi
        exact absurd hs (d r (by simp) _)
      · rw [upd_other _ _ hi]; exact h.nspNone k j d.tail
    cplxNone := fun i d => h.cplxNone i d.tail
    lenNone := fun rv hv i d => h.lenNone rv hv i d.tail }

theorem EnvInv.resref (h : EnvInv e0 past env) {a b c d e f g : PyF} {more : List PyF} {i j : Int}
    (hn : r.name = "RDRESREF") (hh : r.head = [a, b, c, d]) (hv : r.vals = e :: f :: g :: more)
    (hb : HasInt b i) (hf : HasInt f j) :
    EnvInv e0 (r :: past) { env with rdresref := upd env.rdresref i j } := by
  have hd : DeclCplx i r j := ⟨hn, a, b, c, d, e, f, g, more, hh, hv, hb, hf⟩
  have hu : ∀ k t, DeclCplx k r t → k = i ∧ t = j := by
    rintro k t ⟨_, a', b', c', d', e', f', g', more', h1, h1', h2, h3⟩
    rw [hh] at h1
    rw [hv] at h1'
    simp only [List.cons.injEq, and_true] at h1 h1'
    obtain ⟨rfl, rfl, rfl, rfl⟩ := h1
    obtain ⟨rfl, rfl, rfl, rfl⟩ := h1'
    exact ⟨h2.unique hb, h3.unique hf⟩
  exact {
    elem := fun k t d => h.elem k t (d.tail (noType (by rw [hn]; decide) k))
    grid := fun i g d => h.grid i g (d.tail (noGridR (by rw [hn]; decide) i))
    noGrid := fun i d => h.noGrid i d.tail
    nsp := fun k j n d => h.nsp k j n (d.tail (noNsp (by rw [hn]; decide) k j))
    cplx := fun k n d => by
      show upd env.rdresref i j k = some n
      by_cases hk : k = i
      · subst hk
        rw [upd_same]
        cases d with
        | here d => rw [(hu _ _ d).2]
        | earlier d _ => exact absurd hd (d _)
      · rw [upd_other _ _ hk]
        exact h.cplx k n (d.tail (fun t dt => hk (hu _ _ dt).1))
    len := fun rv i n d => h.len rv i n (d.tail (noLen (by rw [hn]; decide) rv i))
    elemNone := fun k d => h.elemNone k d.tail
    nspNone := fun k j d => h.nspNone k j d.tail
    cplxNone := fun k d => by
      show upd env.rdresref i j k = none
      by_cases hk : k = i
      · subst hk; exact absurd hd (d r (by simp) _)
      · rw [upd_other _ _ hk]; exact h.cplxNone k d.tail
    lenNone := fun rv hv i d => h.lenNone rv hv i d.tail }

theorem defines_rvName {rd rv : String} (h : Defines rd rv) : rv = rvName rd := by
  simp only [Defines, List.mem_cons, Prod.mk.injEq, List.not_mem_nil, or_false] at h
  rcases h with ⟨rfl, rfl⟩ | ⟨rfl, rfl⟩ | ⟨rfl, rfl⟩ <;> decide +kernel

/-- names not among the element results -/
theorem rvName_other {rd rv : String} (h : rd ∈ ["RDNODRES", "RDELNFOR"])
    (hv : rv ∈ ["RVFORCES", "RVSTRAIN", "RVSTRESS"]) : rv ≠ rvName rd := by
  have : ∀ rd ∈ ["RDNODRES", "RDELNFOR"], ∀ rv ∈ ["RVFORCES", "RVSTRAIN", "RVSTRESS"],
      rv ≠ rvName rd := by decide +kernel
  exact this rd h rv hv

theorem declLen_names {rv : String} {k m : Int} {past : List LRec}
    (h : Latest (DeclLen rv k) past m) : rv ∈ ["RVFORCES", "RVSTRAIN", "RVSTRESS"] := by
  induction h with
  | here hd =>
    have := hd.1
    simp only [Defines, List.mem_cons, Prod.mk.injEq, List.not_mem_nil, or_false] at this ⊢
    rcases this with d | d | d
    · exact .inl d.2
    · exact .inr (.inl d.2)
    · exact .inr (.inr d.2)
  | earlier _ _ ih => exact ih

theorem EnvInv.compdef (h : EnvInv e0 past env) {a b c d : PyF} {i n : Int}
    (hn : r.name ∈ ["RDFORCES", "RDNODRES", "RDSTRAIN", "RDSTRESS", "RDELNFOR"])
    (hh : r.head = [a, b, c, d]) (hb : HasInt b i) (hc : HasInt c n) :
    EnvInv e0 (r :: past) { env with lenrec := upd env.lenrec (rvName r.name, i) n } := by
  have hu : ∀ rv k t, DeclLen rv k r t → rv = rvName r.name ∧ k = i ∧ t = n := by
    rintro rv k t ⟨h0, a', b', c', d', h1, h2, h3⟩
    rw [hh] at h1
    simp only [List.cons.injEq, and_true] at h1
    obtain ⟨rfl, rfl, rfl, rfl⟩ := h1
    exact ⟨defines_rvName h0, h2.unique hb, h3.unique hc⟩
  have hne : r.name ≠ "GELMNT1" ∧ r.name ≠ "RDPOINTS" ∧ r.name ≠ "RDRESREF" := by
    simp only [List.mem_cons, List.not_mem_nil, or_false] at hn
    rcases hn with h | h | h | h | h <;> rw [h] <;> decide
  exact {
    elem := fun k t d => h.elem k t (d.tail (noType hne.1 k))
    grid := fun i g d => h.grid i g (d.tail (noGridR hne.2.1 i))
    noGrid := fun i d => h.noGrid i d.tail
    nsp := fun k j n d => h.nsp k j n (d.tail (noNsp hne.2.1 k j))
    cplx := fun i n d => h.cplx i n (d.tail (noCplx hne.2.2 i))
    len := fun rv k m dl => by
      show upd env.lenrec (rvName r.name, i) n (rv, k) = some m
      cases dl with
      | here dl =>
        obtain ⟨rfl, rfl, rfl⟩ := hu _ _ _ dl
        exact upd_same _ _ _
      | earlier dl dl' =>
        have := h.len rv k m dl'
        rw [upd_other, this]
        intro heq
        rw [Prod.mk.injEq] at heq
        obtain ⟨h1, rfl⟩ := heq
        have hdef : Defines r.name rv ∨ rv ∉ ["RVFORCES", "RVSTRAIN", "RVSTRESS"] := by
          simp only [List.mem_cons, List.not_mem_nil, or_false] at hn
          rw [h1]
          rcases hn with h | h | h | h | h <;> rw [h]
          · left; show (_, _) ∈ _; decide +kernel
          · right; decide +kernel
          · left; show (_, _) ∈ _; decide +kernel
          · left; show (_, _) ∈ _; decide +kernel
          · right; decide +kernel
        rcases hdef with hdef | hdef
        · exact dl n ⟨hdef, a, b, c, d, hh, hb, hc⟩
        · apply hdef
          exact declLen_names dl'
    elemNone := fun k d => h.elemNone k d.tail
    nspNone := fun k j d => h.nspNone k j d.tail
    cplxNone := fun k d => h.cplxNone k d.tail
    lenNone := fun rv hv k dl => by
      show upd env.lenrec (rvName r.name, i) n (rv, k) = none
      rw [upd_other, h.lenNone rv hv k dl.tail]
      intro heq
      rw [Prod.mk.injEq] at heq
      obtain ⟨h1, rfl⟩ := heq
      have hdef : Defines r.name rv ∨ rv ∉ ["RVFORCES", "RVSTRAIN", "RVSTRESS"] := by
        simp only [List.mem_cons, List.not_mem_nil, or_false] at hn
        rw [h1]
        rcases hn with h | h | h | h | h <;> rw [h]
        · left; show (_, _) ∈ _; decide +kernel
        · right; decide +kernel
        · left; show (_, _) ∈ _; decide +kernel
        · left; show (_, _) ∈ _; decide +kernel
        · right; decide +kernel
      rcases hdef with hdef | hdef
      · exact dl r (by simp) n ⟨hdef, a, b, c, d, hh, hb, hc⟩
      · exact hdef hv }

end

/-! ### the reader of a record type -/

/-- the loop body used for the records of a type -/
def BodyFor (name : String) (body : Body) : Prop :=
  readers name = some (.block (if name = "SCONMESH" then sconmeshCheck else noCheck) body) ∨
  name = "HIERARCH" ∧ body = hierarchBody

/-- the record after it has been read -/
def done (r : LRec) : LRec := { r with pre := [], vals := [] }

/-- what `means_run` provides -/
def BodyRuns (e0 : Int → Option Int) (past rest : List LRec) (r : LRec) (e : Entry)
    (body : Body) : Prop :=
  ∀ env, EnvInv e0 past env → ∀ sk, ∃ env' o,
    Prog.run (L.reader sk) (body r.name env r.head) ⟨r, 0, rest⟩ =
      .ok ((env', emitOf e), ⟨done r, o, rest⟩) ∧ EnvInv e0 (r :: past) env'

theorem bodyRuns_of_reads {e0 : Int → Option Int} {past rest : List LRec} {r : LRec} {e : Entry}
    {body : Body}
    (h : ∀ env, EnvInv e0 past env → ∃ env', Reads (body r.name env r.head) r (env', emitOf e)
      (done r) ∧ EnvInv e0 (r :: past) env') : BodyRuns e0 past rest r e body := by
  intro env hi sk
  obtain ⟨env', h1, h2⟩ := h env hi
  obtain ⟨o, ho⟩ := h1 sk 0 rest
  exact ⟨env', o, ho, h2⟩

/-- a record that declares nothing -/
theorem bodyRuns_plain {e0 : Int → Option Int} {past rest : List LRec} {r : LRec} {e : Entry}
    {body : Body} (hn : r.name ∉ declNames)
    (h : ∀ env, Reads (body r.name env r.head) r (env, emitOf e) (done r)) :
    BodyRuns e0 past rest r e body :=
  bodyRuns_of_reads fun env hi => ⟨env, h env, hi.skip' hn⟩

set_option maxRecDepth 10000 in
theorem fixed_reader {name : String} {n k : Nat} (h : (name, n, k) ∈ fixedTypes) :
    ∃ cols, BodyFor name (standardBody cols k) ∧ cols.length = n ∧ name ∉ declNames := by
  simp only [fixedTypes, List.mem_cons, Prod.mk.injEq, List.not_mem_nil, or_false] at h
  rcases h with ⟨rfl, rfl, rfl⟩ | ⟨rfl, rfl, rfl⟩ | ⟨rfl, rfl, rfl⟩ | ⟨rfl, rfl, rfl⟩ |
    ⟨rfl, rfl, rfl⟩ | ⟨rfl, rfl, rfl⟩ | ⟨rfl, rfl, rfl⟩ | ⟨rfl, rfl, rfl⟩ <;>
  exact ⟨_, .inl rfl, rfl, by decide⟩

set_option maxRecDepth 10000 in
theorem optional_reader {name : String} {n m : Nat} (h : (name, n, m) ∈ optionalTypes) :
    ∃ cols, BodyFor name (optionalBody cols 8 m) ∧ cols.length = n ∧ name ∉ declNames ∧ 0 < m ∧
      4 + m < n := by
  simp only [optionalTypes, List.mem_cons, Prod.mk.injEq, List.not_mem_nil, or_false] at h
  rcases h with ⟨rfl, rfl, rfl⟩ | ⟨rfl, rfl, rfl⟩ | ⟨rfl, rfl, rfl⟩ | ⟨rfl, rfl, rfl⟩ |
    ⟨rfl, rfl, rfl⟩ | ⟨rfl, rfl, rfl⟩ | ⟨rfl, rfl, rfl⟩ | ⟨rfl, rfl, rfl⟩ | ⟨rfl, rfl, rfl⟩ |
    ⟨rfl, rfl, rfl⟩ | ⟨rfl, rfl, rfl⟩ <;>
  exact ⟨_, .inl rfl, rfl, by decide, by decide, by decide⟩

theorem plainB {name : String} (h : (name ∈ declNames : Bool) = false) : name ∉ declNames := by
  simpa using h

/-- run a tactic for each name of a list of names -/
macro "each_name " h:ident " => " t:tacticSeq : tactic =>
  `(tactic| (
    simp only [List.mem_cons, List.not_mem_nil, or_false] at $h:ident
    repeat' (refine Or.elim $h:ident (fun $h:ident => ?_) (fun $h:ident => ?_))
    all_goals (subst $h:ident; ($t))))

set_option maxRecDepth 10000 in
/-- **the readers follow the specification** -/
theorem means_run {e0 : Int → Option Int} {past rest : List LRec} {r : LRec} {e : Entry}
    (h : Means e0 past rest.head? r e) (hn : r.name ≠ "IDENT") :
    ∃ body, BodyFor r.name body ∧ BodyRuns e0 past rest r e body := by
  cases h with
  | fixed h1 h2 h3 =>
    obtain ⟨cols, hb, hl, hd⟩ := fixed_reader h1
    exact ⟨_, hb, bodyRuns_plain hd fun env => standardBody_reads hl h2 h3⟩
  | @optPresent name n m head vals pad h1 h2 =>
    obtain ⟨cols, hb, hl, hd, hm, hn'⟩ := optional_reader h1
    refine ⟨_, hb, fun env hi sk => ?_⟩
    obtain ⟨o, ho⟩ := optionalBody_present (name := name) (env := env) (head := head) (vals := vals)
      (pad := pad) hl h2 hm hn' sk rest
    exact ⟨env, o, ho, hi.skip' hd⟩
  | @optAbsent name n m head vals nx h1 h2 h3 h4 =>
    obtain ⟨cols, hb, hl, hd, hm, hn'⟩ := optional_reader h1
    refine ⟨_, hb, fun env hi sk => ?_⟩
    cases rest with
    | nil => cases h3
    | cons r' rest =>
      rw [List.head?_cons, Option.some.injEq] at h3
      subst h3
      obtain ⟨o, ho⟩ := optionalBody_absent (name := name) (env := env) (head := head)
        (vals := vals) hl h2 hn' sk (rest := rest) h4
      exact ⟨env, o, ho, hi.skip' hd⟩
  | @fixedCut name n k head sk' vals h1 h2 h3 =>
    obtain ⟨cols, hb, hl, hd⟩ := fixed_reader h1
    refine ⟨_, hb, fun env hi sk => ?_⟩
    obtain ⟨rest, rfl⟩ := List.head?_eq_some_iff.mp h3
    obtain ⟨o, ho⟩ := standardBody_cut (name := name) (env := env) (head := head) (vals := vals)
      (sk := sk') (k := k) hl h2 sk rest
    exact ⟨env, o, ho, hi.skip' hd⟩
  | @optCut name n m head vals h1 h2 h3 =>
    obtain ⟨cols, hb, hl, hd, hm, hn'⟩ := optional_reader h1
    refine ⟨_, hb, fun env hi sk => ?_⟩
    obtain ⟨rest, rfl⟩ := List.head?_eq_some_iff.mp h3
    obtain ⟨o, ho⟩ := optionalBody_cut (name := name) (env := env) (head := head) (vals := vals)
      hl h2 hm hn' sk rest
    exact ⟨env, o, ho, hi.skip' hd⟩
  | hierarch h1 =>
    exact ⟨_, .inr ⟨rfl, rfl⟩, bodyRuns_plain (by apply plainB; rfl) fun env => hierarchBody_reads h1⟩
  | ident => exact absurd rfl hn
  | @text name _ _ _ _ _ _ _ _ h1 h2 h3 =>
    have hb : BodyFor name textBody := by each_name h1 => exact Or.inl rfl
    have hd : name ∉ declNames := by each_name h1 => decide
    exact ⟨_, hb, bodyRuns_plain hd fun env => textBody_reads h2 h3⟩
  | @td name _ _ _ _ _ _ _ _ _ _ _ _ h1 h2 h3 h4 h5 h6 h7 =>
    have hb : BodyFor name tdBody := by each_name h1 => exact Or.inl rfl
    have hd : name ∉ declNames := by each_name h1 => decide
    exact ⟨_, hb, bodyRuns_plain hd fun env => tdBody_reads h2 h3 h4 h5 h6 h7⟩
  | gelmnt1 h1 h2 h3 =>
    exact ⟨_, .inl rfl, bodyRuns_of_reads fun env hi =>
      ⟨_, gelmnt1Body_reads h1 h2 h3, hi.gelmnt1 rfl rfl h1 h2⟩⟩
  | gelmnt2 h1 h2 =>
    exact ⟨_, .inl rfl, bodyRuns_plain (by apply plainB; rfl) fun env => gelmnt2Body_reads h1 h2⟩
  | gelref1 h1 h2 h3 h4 h5 h6 h7 =>
    exact ⟨_, .inl rfl, bodyRuns_of_reads fun env hi =>
      ⟨_, gelref1Body_reads h1 (hi.elem _ _ h2) h3 h4 h5 h6 h7, hi.skip' (by apply plainB; rfl)⟩⟩
  | gsetmemb h1 =>
    exact ⟨_, .inl rfl, bodyRuns_plain (by apply plainB; rfl) fun env => gsetmembBody_reads h1⟩
  | sconcept7 h1 h2 h3 =>
    exact ⟨_, .inl rfl, bodyRuns_plain (by apply plainB; rfl) fun env => sconcept7_reads h1 h2 h3⟩
  | sconcept2 h1 =>
    exact ⟨_, .inl rfl, bodyRuns_plain (by apply plainB; rfl) fun env => sconcept2_reads h1⟩
  | sconmesh h1 =>
    exact ⟨_, .inl rfl, bodyRuns_plain (by apply plainB; rfl) fun env => sconmeshBody_reads h1⟩
  | bnbcd h1 h2 h3 =>
    exact ⟨_, .inl rfl, bodyRuns_plain (by apply plainB; rfl) fun env => bnbcdBody_reads h1 h2 h3⟩
  | bldep h1 h2 =>
    exact ⟨_, .inl rfl, bodyRuns_plain (by apply plainB; rfl) fun env => bldepBody_reads h1 h2⟩
  | beuslo h1 h2 h3 =>
    exact ⟨_, .inl rfl, bodyRuns_plain (by apply plainB; rfl) fun env => beusloBody_reads h1 h2 h3⟩
  | brigac h1 h2 h3 =>
    exact ⟨_, .inl rfl, bodyRuns_plain (by apply plainB; rfl) fun env => brigacBody_reads h1 h2 h3⟩
  | @xsuptran name _ _ _ _ _ _ _ _ _ h1 h2 h3 h4 =>
    have hb : BodyFor name xsuptranBody := by each_name h1 => exact Or.inl rfl
    have hd : name ∉ declNames := by each_name h1 => decide
    exact ⟨_, hb, bodyRuns_plain hd fun env => xsuptranBody_reads h2 h3 h4⟩
  | @compdef name _ _ _ _ _ _ _ h1 h2 h3 =>
    have hb : BodyFor name compdefBody := by each_name h1 => exact Or.inl rfl
    exact ⟨_, hb, bodyRuns_of_reads fun env hi =>
      ⟨_, compdefBody_reads h2 h3, hi.compdef h1 rfl h2 h3⟩⟩
  | rdpoints h1 h2 h3 h4 =>
    exact ⟨_, .inl rfl, bodyRuns_of_reads fun env hi =>
      ⟨_, rdpointsBody_reads rfl h1 h2 h3 h4, hi.points h1⟩⟩
  | @rdielcor _ _ _ _ i _ _ _ _ _ _ g h1 h2 h3 h4 h5 h6 h7 h8 =>
    refine ⟨_, .inl rfl, bodyRuns_of_reads fun env hi => ?_⟩
    have hg : rdielcorGrid env i = some (g.1, (g.2.1 : Int), (g.2.2.1 : Int), (g.2.2.2 : Int)) := by
      unfold rdielcorGrid
      rcases h2 with h2 | ⟨h2, ⟨rfl, rfl⟩ | ⟨rfl, rfl⟩⟩
      · rw [hi.grid _ _ h2]
      · rw [hi.noGrid _ h2]; rfl
      · rw [hi.noGrid _ h2]; rfl
    exact ⟨_, rdielcorBody_reads h1 hg h3 h4 h5 h6 h7 h8, hi.skip (by apply plainB; rfl) _⟩
  | rdresref h1 h2 h3 h4 h5 =>
    exact ⟨_, .inl rfl, bodyRuns_of_reads fun env hi =>
      ⟨_, rdresrefBody_reads h1 h2 h3 h4 h5, hi.resref rfl rfl rfl h1 h2⟩⟩
  | @triples name _ _ _ _ _ _ _ _ h1 h2 h3 h4 =>
    have hb : BodyFor name triplesBody := by each_name h1 => exact Or.inl rfl
    have hd : name ∉ declNames := by each_name h1 => decide
    exact ⟨_, hb, bodyRuns_plain hd fun env => triplesBody_reads h2 h3 h4⟩
  | @rvnod name _ _ _ _ _ _ _ _ _ _ h1 h2 h3 h4 h5 h6 =>
    have hb : BodyFor name rvnodresBody := by each_name h1 => exact Or.inl rfl
    have hd : name ∉ declNames := by each_name h1 => decide
    exact ⟨_, hb, bodyRuns_of_reads fun env hi =>
      ⟨_, rvnodresBody_reads h2 h3 (hi.cplx _ _ h4) h5 h6, hi.skip' hd⟩⟩
  | @rvelm name _ _ _ _ _ _ _ _ _ _ _ _ _ _ h1 h2 h3 h4 h5 h6 h7 h8 h9 =>
    have hb : BodyFor name rvelmresBody := by each_name h1 => exact Or.inl rfl
    have hd : name ∉ declNames := by each_name h1 => decide
    exact ⟨_, hb, bodyRuns_of_reads fun env hi =>
      ⟨_, rvelmresBody_reads h2 h3 h4 h5 (hi.nsp _ _ _ h6) (hi.len _ _ _ h7) (hi.cplx _ _ h8) h9,
        hi.skip' hd⟩⟩
  | wdresref h1 h2 h3 h4 h5 h6 =>
    exact ⟨_, .inl rfl, bodyRuns_plain (by apply plainB; rfl) fun env => wdresrefBody_reads h1 h2 h3 h4 h5 h6⟩
  | wglobdefInf h1 =>
    exact ⟨_, .inl rfl, bodyRuns_plain (by apply plainB; rfl) fun env => wglobdefInf_reads h1⟩
  | wglobdef h1 h2 =>
    exact ⟨_, .inl rfl, bodyRuns_plain (by apply plainB; rfl) fun env => wglobdef_reads h1 h2⟩
  | wbody h1 h2 =>
    exact ⟨_, .inl rfl, bodyRuns_plain (by apply plainB; rfl) fun env => wbodyBody_reads h1 h2⟩
  | w1matrix h1 =>
    exact ⟨_, .inl rfl, bodyRuns_plain (by apply plainB; rfl) fun env => w1matrixBody_reads h1⟩
  | @six name _ _ _ _ _ _ _ _ h1 h2 h3 =>
    have hb : BodyFor name wcommonBody := by each_name h1 => exact Or.inl rfl
    have hd : name ∉ declNames := by each_name h1 => decide
    exact ⟨_, hb, bodyRuns_plain hd fun env => wcommonBody_reads h2 h3⟩
  | w1sforce h1 h2 =>
    exact ⟨_, .inl rfl, bodyRuns_plain (by apply plainB; rfl) fun env => w1sforceBody_reads h1 h2⟩
  | w2hdrift =>
    exact ⟨_, .inl rfl, bodyRuns_plain (by apply plainB; rfl) fun env => driftBody_reads rfl⟩
  | w2mdrift h1 =>
    exact ⟨_, .inl rfl, bodyRuns_plain (by apply plainB; rfl) fun env => driftBody_reads h1⟩
  | wfkpoint =>
    exact ⟨_, .inl rfl, bodyRuns_plain (by apply plainB; rfl) fun env => wfkpointBody_reads⟩
  | wfluidknC h1 h2 h3 h4 =>
    exact ⟨_, .inl rfl, bodyRuns_plain (by apply plainB; rfl) fun env => wfluidknC_reads h1 h2 h3 h4⟩
  | wfluidknR h1 =>
    exact ⟨_, .inl rfl, bodyRuns_plain (by apply plainB; rfl) fun env => wfluidknR_reads h1⟩
  | wsection =>
    exact ⟨_, .inl rfl, bodyRuns_plain (by apply plainB; rfl) fun env => wsectionBody_reads⟩
  | wsurface h1 h2 h3 h4 h5 h6 =>
    exact ⟨_, .inl rfl, bodyRuns_plain (by apply plainB; rfl) fun env =>
      wsurfaceBody_reads h1 h2 h3 h4 h5 h6⟩
  | winput h1 =>
    exact ⟨_, .inl rfl, bodyRuns_plain (by apply plainB; rfl) fun env => winputBody_reads h1⟩
  | w1panpreC h1 h2 =>
    exact ⟨_, .inl rfl, bodyRuns_plain (by apply plainB; rfl) fun env => w1panpreC_reads h1 h2⟩
  | w1panpreR h1 =>
    exact ⟨_, .inl rfl, bodyRuns_plain (by apply plainB; rfl) fun env => w1panpreR_reads h1⟩

end Verif.Parse
