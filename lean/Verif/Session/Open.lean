import Verif.Session.Spec
import Verif.Data.LifeOpen
/-!
# Opening the contents of an HDF5 file
-/

namespace Verif.Session
open Verif Verif.Seq Verif.Parse Verif.Conv Verif.Data Verif.Data.Life Verif.Data.Load

/-! ### names -/

theorem join_toList (n m : String) : (n ++ "/" ++ m).toList = n.toList ++ '/' :: m.toList := by
  rw [String.toList_append, String.toList_append, List.append_assoc]
  rfl

theorem split_slash : ∀ {a b c d : List Char}, '/' ∉ a → '/' ∉ c →
    a ++ '/' :: b = c ++ '/' :: d → a = c ∧ b = d
  | [], b, [], d, _, _, h => ⟨rfl, by simpa using h⟩
  | [], b, y :: c, d, _, h2, h => by
    simp only [List.nil_append, List.cons_append, List.cons.injEq] at h
    exact absurd (by rw [← h.1]; simp) h2
  | x :: a, b, [], d, h1, _, h => by
    simp only [List.nil_append, List.cons_append, List.cons.injEq] at h
    exact absurd (by rw [h.1]; simp) h1
  | x :: a, b, y :: c, d, h1, h2, h => by
    simp only [List.cons_append, List.cons.injEq] at h
    obtain ⟨h3, h4⟩ := split_slash (a := a) (c := c) (fun h => h1 (by simp [h]))
      (fun h => h2 (by simp [h])) h.2
    exact ⟨by rw [h.1, h3], h4⟩

theorem join_inj {n m n' m' : String} (h1 : '/' ∉ n.toList) (h2 : '/' ∉ n'.toList)
    (h : n ++ "/" ++ m = n' ++ "/" ++ m') : n = n' ∧ m = m' := by
  have := congrArg String.toList h
  rw [join_toList, join_toList] at this
  obtain ⟨h3, h4⟩ := split_slash h1 h2 this
  exact ⟨String.toList_inj.mp h3, String.toList_inj.mp h4⟩

theorem join_ne {n m n' : String} (h : '/' ∉ n'.toList) : n ++ "/" ++ m ≠ n' := by
  rintro rfl
  rw [join_toList] at h
  simp at h

theorem drop_join (n m : String) :
    String.ofList ((n ++ "/" ++ m).toList.drop (n.toList.length + 1)) = m := by
  rw [join_toList]
  simp

section
variable {K V : Type} [Field K] [LinearOrder K] {pi : K} {num : PyF → K} {cplx : PyF → PyF → V}
  {h : H5}

/-! ### the list of groups -/

/-- the subgroups of a group -/
theorem subs_listed {n : String} {a : Attrs} (ha : h.groups [n] = some a) :
    ∀ (ms : List String), (∀ m ∈ ms, ∃ b l, h.groups [n, m] = some b ∧ b.level = some l) →
    ms.Nodup →
    ∃ ds es, ms.mapM (subDesc h n) = .ok ds ∧ SubListing n ds es ∧
      (∀ e, e ∈ es ↔ ∃ m ∈ ms, ∃ c, SubAt h n m c ∧ e = ⟨n ++ "/" ++ m, c, some n⟩) ∧
      ((∀ m ∈ ms, '/' ∉ m.toList) → '/' ∉ n.toList → (es.map (·.name)).Nodup)
  | [], _, _ => ⟨[], [], rfl, .nil, by simp, by simp⟩
  | m :: ms, hall, hnd => by
    rw [List.nodup_cons] at hnd
    obtain ⟨ds, es, i1, i2, i3, i4⟩ := subs_listed ha ms (fun m hm => hall m (by simp [hm])) hnd.2
    obtain ⟨b, l, hb, hl⟩ := hall m (by simp)
    have hd : subDesc h n m = .ok (m, l) := by
      unfold subDesc
      rw [hb]
      show (attr b.level >>= _) = _
      rw [hl]
      rfl
    have hmap : (m :: ms).mapM (subDesc h n) = .ok ((m, l) :: ds) := by
      rw [List.mapM_cons, hd, i1]
      rfl
    have huniq : ∀ c, SubAt h n m c → (c = .inter ∧ l = "INTERLEVEL") ∨ (c = .first ∧ l = "FIRSTLEVEL") := by
      intro c hc
      cases hc with
      | inter _ hb' hl' => rw [hb] at hb'; cases hb'; rw [hl] at hl'; cases hl'; exact .inl ⟨rfl, rfl⟩
      | first _ hb' hl' => rw [hb] at hb'; cases hb'; rw [hl] at hl'; cases hl'; exact .inr ⟨rfl, rfl⟩
    have hne : ¬ ("FIRSTLEVEL" : String) = "INTERLEVEL" := by decide
    have nodup : ∀ c, (∀ m' ∈ m :: ms, '/' ∉ m'.toList) → '/' ∉ n.toList →
        (((⟨n ++ "/" ++ m, c, some n⟩ : Life.Entry) :: es).map (·.name)).Nodup := by
      intro c h1 h2
      rw [List.map_cons, List.nodup_cons]
      refine ⟨?_, i4 (fun m hm => h1 m (by simp [hm])) h2⟩
      rintro hin
      obtain ⟨e, he, hen⟩ := List.mem_map.mp hin
      obtain ⟨m', hm', c', -, rfl⟩ := (i3 e).mp he
      obtain ⟨-, e2⟩ := join_inj h2 h2 hen
      exact hnd.1 (e2 ▸ hm')
    by_cases hi : l = "INTERLEVEL"
    · subst hi
      refine ⟨_, _, hmap, .inter i2, ?_, nodup .inter⟩
      intro e
      rw [List.mem_cons, i3]
      constructor
      · rintro (rfl | ⟨m', hm', c, hc⟩)
        · exact ⟨m, by simp, .inter, .inter ha hb hl, rfl⟩
        · exact ⟨m', by simp [hm'], c, hc⟩
      · rintro ⟨m', hm', c, hc, rfl⟩
        rcases List.mem_cons.mp hm' with rfl | hm'
        · rcases huniq c hc with ⟨rfl, -⟩ | ⟨-, e⟩
          · exact .inl rfl
          · exact absurd e.symm hne
        · exact .inr ⟨m', hm', c, hc, rfl⟩
    by_cases hf : l = "FIRSTLEVEL"
    · subst hf
      refine ⟨_, _, hmap, .first i2, ?_, nodup .first⟩
      intro e
      rw [List.mem_cons, i3]
      constructor
      · rintro (rfl | ⟨m', hm', c, hc⟩)
        · exact ⟨m, by simp, .first, .first ha hb hl, rfl⟩
        · exact ⟨m', by simp [hm'], c, hc⟩
      · rintro ⟨m', hm', c, hc, rfl⟩
        rcases List.mem_cons.mp hm' with rfl | hm'
        · rcases huniq c hc with ⟨-, e⟩ | ⟨rfl, -⟩
          · exact absurd e hne
          · exact .inl rfl
        · exact .inr ⟨m', hm', c, hc, rfl⟩
    · refine ⟨_, _, hmap, .other hi hf i2, ?_, fun h1 h2 => i4 (fun m hm => h1 m (by simp [hm])) h2⟩
      intro e
      rw [i3]
      constructor
      · rintro ⟨m', hm', c, hc⟩
        exact ⟨m', by simp [hm'], c, hc⟩
      · rintro ⟨m', hm', c, hc, rfl⟩
        rcases List.mem_cons.mp hm' with rfl | hm'
        · rcases huniq c hc with ⟨-, e⟩ | ⟨-, e⟩
          · exact absurd e hi
          · exact absurd e hf
        · exact ⟨m', hm', c, hc, rfl⟩

/-- one group -/
theorem group_described {n : String} {c : Cls} (hc : ClassAt pi num cplx h n c) {ms : List String}
    {ds : List (String × String)} (hd : ms.mapM (subDesc h n) = .ok ds) :
    ∃ g, describe pi num cplx h (n, ms) = .ok g ∧ g.name = n ∧ g.subs = ds ∧ IsClass g c := by
  have key : ∀ {a : Attrs} {dt lev : String}, h.groups [n] = some a → a.datatype = some dt →
      a.level = some lev → dt = "STRUCTURAL" ∨ dt = "HYDRODYNAMIC" →
      (dt = "HYDRODYNAMIC" → ∃ t o, loadHydro num cplx h [n] = .ok t ∧ Data.hydroInit pi t = .ok o) →
      describe pi num cplx h (n, ms) =
        .ok { name := n, datatype := dt, level := lev
              hydroInit := do
                let t ← loadHydro num cplx h [n]
                let _ ← Data.hydroInit pi t
                .ok ()
              subs := ds } := by
    intro a dt lev h1 h2 h3 h4 h5
    unfold describe
    by_cases hy : dt = "HYDRODYNAMIC"
    · obtain ⟨t, o, h6, h7⟩ := h5 hy
      simp only [h1, h2, h3, h6, h7, hd, attr, bind, Except.bind, if_pos h4, if_pos hy]
    · simp only [h1, h2, h3, hd, attr, bind, Except.bind, if_pos h4, if_neg hy, pure, Except.pure]
  cases hc with
  | top h1 h2 h3 =>
    exact ⟨_, key h1 h2 h3 (.inl rfl) (fun h => absurd h (by decide)), rfl, rfl, .top rfl rfl⟩
  | first h1 h2 h3 =>
    exact ⟨_, key h1 h2 h3 (.inl rfl) (fun h => absurd h (by decide)), rfl, rfl, .first rfl rfl⟩
  | @hydro a lev t o h1 h2 h3 h4 h5 =>
    refine ⟨_, key h1 h2 h3 (.inr rfl) (fun _ => ⟨t, o, h4, h5⟩), rfl, rfl, .hydro rfl ?_⟩
    show (loadHydro num cplx h [n] >>= _) = _
    rw [h4]
    show (Data.hydroInit pi t >>= _) = _
    rw [h5]
    rfl

theorem classAt_unique {n : String} {c c' : Cls} (h1 : ClassAt pi num cplx h n c)
    (h2 : ClassAt pi num cplx h n c') : c = c' := by
  have n1 : ¬ ("FIRSTLEVEL" : String) = "TOPLEVEL" := by decide
  have n2 : ¬ ("HYDRODYNAMIC" : String) = "STRUCTURAL" := by decide
  cases h1 with
  | top a1 a2 a3 =>
    cases h2 with
    | top => rfl
    | first b1 b2 b3 => rw [a1] at b1; cases b1; rw [a3] at b3; exact absurd (Option.some.inj b3).symm n1
    | hydro b1 b2 b3 => rw [a1] at b1; cases b1; rw [a2] at b2; exact absurd (Option.some.inj b2).symm n2
  | first a1 a2 a3 =>
    cases h2 with
    | top b1 b2 b3 => rw [a1] at b1; cases b1; rw [a3] at b3; exact absurd (Option.some.inj b3) n1
    | first => rfl
    | hydro b1 b2 b3 => rw [a1] at b1; cases b1; rw [a2] at b2; exact absurd (Option.some.inj b2).symm n2
  | hydro a1 a2 a3 =>
    cases h2 with
    | top b1 b2 b3 => rw [a1] at b1; cases b1; rw [a2] at b2; exact absurd (Option.some.inj b2) n2
    | first b1 b2 b3 => rw [a1] at b1; cases b1; rw [a2] at b2; exact absurd (Option.some.inj b2) n2
    | hydro => rfl

/-- the entry of a group or subgroup among those listed in `ns` -/
def IsEntry (pi : K) (num : PyF → K) (cplx : PyF → PyF → V) (h : H5)
    (ns : List (String × List String)) (e : Life.Entry) : Prop :=
  (∃ p ∈ ns, ∃ c, ClassAt pi num cplx h p.1 c ∧ e = ⟨p.1, c, none⟩) ∨
  ∃ p ∈ ns, ∃ m ∈ p.2, ∃ c, SubAt h p.1 m c ∧ e = ⟨p.1 ++ "/" ++ m, c, some p.1⟩

theorem groups_listed (hp : Proper pi num cplx h) :
    ∀ (ns : List (String × List String)), (∀ p ∈ ns, ∃ a, h.groups [p.1] = some a) →
    (∀ p ∈ ns, p.2.Nodup ∧ ∀ m ∈ p.2, ∃ a, h.groups [p.1, m] = some a) → (ns.map Prod.fst).Nodup →
    (∀ p ∈ ns, '/' ∉ p.1.toList ∧ ∀ m ∈ p.2, '/' ∉ m.toList) →
    ∃ gs es, ns.mapM (describe pi num cplx h) = .ok gs ∧ Listing gs es ∧
      (∀ e, e ∈ es ↔ IsEntry pi num cplx h ns e) ∧ (es.map (·.name)).Nodup
  | [], _, _, _, _ => ⟨[], [], rfl, .nil, by simp [IsEntry], by simp⟩
  | p :: ns, h1, h2, h3, h4 => by
    rw [List.map_cons, List.nodup_cons] at h3
    obtain ⟨gs, es, i1, i2, i3, i4⟩ := groups_listed hp ns (fun p hp => h1 p (by simp [hp]))
      (fun p hp => h2 p (by simp [hp])) h3.2 (fun p hp => h4 p (by simp [hp]))
    obtain ⟨a, ha⟩ := h1 p (by simp)
    obtain ⟨c, hc⟩ := hp.groups _ _ ha
    obtain ⟨n1, n2⟩ := h2 p (by simp)
    obtain ⟨s1, s2⟩ := h4 p (by simp)
    obtain ⟨ds, es', j1, j2, j3, j4⟩ := subs_listed ha p.2 (fun m hm => by
      obtain ⟨b, hb⟩ := n2 m hm
      obtain ⟨l, hl⟩ := hp.subs _ _ _ hb
      exact ⟨b, l, hb, hl⟩) n1
    obtain ⟨g, k1, k2, k3, k4⟩ := group_described hc j1
    refine ⟨g :: gs, { name := g.name, cls := c } :: es' ++ es, ?_, ?_, ?_, ?_⟩
    · rw [List.mapM_cons, i1]
      show (describe pi num cplx h (p.1, p.2) >>= _) = _
      rw [k1]
      rfl
    · exact .group k4 (by rw [k2, k3]; exact j2) i2
    · intro e
      rw [List.cons_append, List.mem_cons, List.mem_append, j3, i3, k2]
      unfold IsEntry
      constructor
      · rintro (rfl | ⟨m, hm, c', hc', rfl⟩ | ⟨q, hq, hx⟩ | ⟨q, hq, hx⟩)
        · exact .inl ⟨p, by simp, c, hc, rfl⟩
        · exact .inr ⟨p, by simp, m, hm, c', hc', rfl⟩
        · exact .inl ⟨q, by simp [hq], hx⟩
        · exact .inr ⟨q, by simp [hq], hx⟩
      · rintro (⟨q, hq, c', hc', rfl⟩ | ⟨q, hq, m, hm, c', hc', rfl⟩)
        · rcases List.mem_cons.mp hq with rfl | hq
          · rw [classAt_unique hc' hc]
            exact .inl rfl
          · exact .inr (.inr (.inl ⟨q, hq, c', hc', rfl⟩))
        · rcases List.mem_cons.mp hq with rfl | hq
          · exact .inr (.inl ⟨m, hm, c', hc', rfl⟩)
          · exact .inr (.inr (.inr ⟨q, hq, m, hm, c', hc', rfl⟩))
    · rw [List.cons_append, List.map_cons, List.map_append, List.nodup_cons, k2]
      have hs2 : ∀ e ∈ es, ∃ q ∈ ns, e.name = q.1 ∨ ∃ m, e.name = q.1 ++ "/" ++ m := by
        intro e he
        rcases (i3 e).mp he with ⟨q, hq, c', _, rfl⟩ | ⟨q, hq, m, _, c', _, rfl⟩
        · exact ⟨q, hq, .inl rfl⟩
        · exact ⟨q, hq, .inr ⟨m, rfl⟩⟩
      have hs1 : ∀ e ∈ es', ∃ m, e.name = p.1 ++ "/" ++ m := by
        intro e he
        obtain ⟨m, -, c', -, rfl⟩ := (j3 e).mp he
        exact ⟨m, rfl⟩
      refine ⟨?_, ?_⟩
      · intro hin
        rcases List.mem_append.mp hin with hin | hin
        · obtain ⟨e, he, hen⟩ := List.mem_map.mp hin
          obtain ⟨m, hm⟩ := hs1 e he
          exact join_ne s1 (hm.symm.trans hen)
        · obtain ⟨e, he, hen⟩ := List.mem_map.mp hin
          obtain ⟨q, hq, hm | ⟨m, hm⟩⟩ := hs2 e he
          · exact h3.1 (List.mem_map.mpr ⟨q, hq, hm.symm.trans hen⟩)
          · exact join_ne s1 (hm.symm.trans hen)
      · refine List.nodup_append.mpr ⟨j4 s2 s1, i4, ?_⟩
        rintro x hx y hy rfl
        obtain ⟨e, he, hen⟩ := List.mem_map.mp hx
        obtain ⟨e', he', hen'⟩ := List.mem_map.mp hy
        obtain ⟨m, hm⟩ := hs1 e he
        obtain ⟨q, hq, hm' | ⟨m', hm'⟩⟩ := hs2 e' he'
        · exact join_ne (h4 q (by simp [hq])).1 (hm.symm.trans (hen.trans (hen'.symm.trans hm')))
        · obtain ⟨e1, -⟩ := join_inj s1 (h4 q (by simp [hq])).1
            (hm.symm.trans (hen.trans (hen'.symm.trans hm')))
          exact h3.1 (List.mem_map.mpr ⟨q, hq, e1.symm⟩)

/-! ### the file -/

theorem openFile_handle {w w' : Life.World} {gs : List GroupDesc} {f : Nat}
    (hf : openFile w gs = (w', .ok f)) : ∃ l, w'.files[f]? = some (.opened l w.handles.length) := by
  unfold openFile at hf
  split at hf
  · injection hf with h1 h2
    injection h2 with h2
    subst h1 h2
    exact ⟨_, List.getElem?_concat_length⟩
  · injection hf with h1 h2
    cases h2

/-- **Opening an HDF5 file**: if every group has a class, the File holds exactly the objects of the
groups and subgroups, each reading its group. -/
theorem open_tables {iter : H5 → List (String × List String)} (s : State) (name : Origin)
    (hp : Proper pi num cplx h) (hi : Enumerates h (iter h))
    (hlen : s.store.length = s.life.handles.length) :
    ∃ s', openTables iter pi num cplx s name h = (s', .ok s.life.files.length) ∧
      s'.conv = s.conv ∧ s'.store = s.store ++ [(name, h)] ∧
      s'.life.handles = s.life.handles ++ [true] ∧
      HoldsFile pi num cplx s' s.life.files.length h ∧
      s'.life.registry = s.life.registry ++ [s.life.files.length] ∧
      ∃ l, s'.life.files[s.life.files.length]? = some (.opened l s.life.handles.length) := by
  obtain ⟨gs, es, h1, h2, h3, h4⟩ := groups_listed hp (iter h)
    (fun p hp => (hi.groups p.1).mp (List.mem_map.mpr ⟨p, hp, rfl⟩))
    (fun p hp => ⟨(hi.subs p hp).1, fun m hm => ((hi.subs p hp).2 m).mp hm⟩) hi.nodup hi.slash
  obtain ⟨w', l, e1, e2⟩ := open_holds_partial s.life h2
  have hh := openFile_handle e1
  have hhand : w'.handles = s.life.handles ++ [true] := by
    have : (openFile s.life gs).1.handles = s.life.handles ++ [true] := by
      unfold openFile
      split <;> rfl
    rw [e1] at this
    exact this
  refine ⟨{ s with life := w', store := s.store ++ [(name, h)] }, ?_, rfl, rfl, hhand, ?_,
    e2.registered, hh⟩
  · unfold openTables
    rw [h1]
    simp only [e1]
  · generalize hS : ({ s with life := w', store := s.store ++ [(name, h)] } : State) = S
    have hlife : S.life = w' := by rw [← hS]
    have hcont : contentsOf S s.life.files.length = .ok h := by
      obtain ⟨l', hl'⟩ := hh
      unfold contentsOf
      rw [hlife, hl', ← hS]
      dsimp only
      rw [← hlen]
      simp
    refine ⟨?_, ?_, ?_, ?_⟩
    · intro n c hc
      have hn : ∃ a, h.groups [n] = some a := by
        cases hc with
        | top h => exact ⟨_, h⟩
        | first h => exact ⟨_, h⟩
        | hydro h => exact ⟨_, h⟩
      obtain ⟨q, hq, rfl⟩ := List.mem_map.mp ((hi.groups n).mpr hn)
      obtain ⟨d, d1, -, d2⟩ := open_lookup e2 h4 ((h3 ⟨q.1, c, none⟩).mpr (.inl ⟨q, hq, c, hc, rfl⟩))
      rw [hlife]
      have d3 : w'.datas[d]? = some (.opened c q.1 (.file s.life.files.length)) := d2
      refine ⟨d, d1, ⟨⟨q.1, _, by rw [hlife]; exact d3, .inl rfl⟩, ?_⟩⟩
      unfold groupOf
      rw [hlife, d3]
      dsimp only
      rw [hcont]
      rfl
    · intro n m c hc
      have hn : (∃ a, h.groups [n] = some a) ∧ ∃ b, h.groups [n, m] = some b := by
        cases hc with
        | inter h h' => exact ⟨⟨_, h⟩, _, h'⟩
        | first h h' => exact ⟨⟨_, h⟩, _, h'⟩
      obtain ⟨q, hq, rfl⟩ := List.mem_map.mp ((hi.groups n).mpr hn.1)
      have hm := ((hi.subs q hq).2 m).mpr hn.2
      obtain ⟨a, ha⟩ := hn.1
      obtain ⟨c', hc'⟩ := hp.groups _ _ ha
      obtain ⟨d, d1, -, d', d2, d3⟩ := open_lookup e2 h4 ((h3 ⟨q.1 ++ "/" ++ m, c, some q.1⟩).mpr (.inr ⟨q, hq, m, hm, c, hc, rfl⟩))
      obtain ⟨k, k1, -, k2⟩ := open_lookup e2 h4 ((h3 ⟨q.1, c', none⟩).mpr (.inl ⟨q, hq, c', hc', rfl⟩))
      rw [hlife]
      have k3 : w'.datas[k]? = some (.opened c' q.1 (.file s.life.files.length)) := k2
      have hk : k = d' := by
        have : Except.ok (ε := Err) k = .ok d' := k1.symm.trans d2
        injection this
      subst hk
      refine ⟨d, d1, ⟨⟨_, _, by rw [hlife]; exact d3, .inr ⟨k, c', q.1, rfl, by rw [hlife]; exact k3⟩⟩, ?_⟩⟩
      unfold groupOf
      rw [hlife, d3]
      dsimp only
      rw [k3]
      dsimp only
      rw [hcont, drop_join]
      rfl
    · intro key k1 k2
      have hnot : key ∉ es.map (·.name) := by
        intro hin
        obtain ⟨e, he, rfl⟩ := List.mem_map.mp hin
        rcases (h3 e).mp he with ⟨p, _, c, hc, rfl⟩ | ⟨p, _, m, _, c, hc, rfl⟩
        · exact k1 _ _ hc rfl
        · exact k2 _ _ _ hc rfl
      have hnames := forall₂_names e2.all
      rw [hlife]
      exact ((lookups e2.items (by rw [hnames]; exact h4)).2.2.2 key (by rw [hnames]; exact hnot)).1
    · have hnames := forall₂_names e2.all
      refine ⟨l.map (·.1), ?_, by rw [hnames]; exact h4⟩
      rw [hlife]
      unfold Life.keys
      rw [e2.items]
      rfl

end
end Verif.Session
