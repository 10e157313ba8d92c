import Verif.Data.Life
/-!
# C25, C26, C54: opening, looking up and closing
-/

namespace Verif.Data.Life
open Verif Verif.Data

/-! ## The invariant of all reachable states -/

/-- following `file` from the data object `d` leads to the File `f` -/
def Chain (datas : List DataSt) (d f : Nat) : Prop :=
  (∃ c p, datas[d]? = some (.opened c p (.file f))) ∨
  ∃ c p d' c' p', datas[d]? = some (.opened c p (.data d')) ∧
    datas[d']? = some (.opened c' p' (.file f))

theorem chain_unique {datas : List DataSt} {d f g : Nat} (h1 : Chain datas d f)
    (h2 : Chain datas d g) : f = g := by
  rcases h1 with ⟨c, p, e1⟩ | ⟨c, p, d', c', p', e1, e2⟩ <;>
    rcases h2 with ⟨c2, p2, e3⟩ | ⟨c2, p2, d2, c2', p2', e3, e4⟩
  · rw [e1] at e3; injection e3 with e3; injection e3 with _ _ e3; injection e3
  · rw [e1] at e3; injection e3 with e3; injection e3 with _ _ e3; cases e3
  · rw [e1] at e3; injection e3 with e3; injection e3 with _ _ e3; cases e3
  · rw [e1] at e3; injection e3 with e3; injection e3 with _ _ e3; injection e3 with e3
    subst e3
    rw [e2] at e4; injection e4 with e4; injection e4 with _ _ e4; injection e4

structure Good (w : World) : Prop where
  chain : ∀ (f : Nat) l h, w.files[f]? = some (.opened l h) → ∀ p ∈ l, Chain w.datas p.2 f
  listed : ∀ (d : Nat) c p o, w.datas[d]? = some (.opened c p o) →
    ∃ (f : Nat), ∃ l h, w.files[f]? = some (.opened l h) ∧ d ∈ l.map (·.2)
  nodup : w.registry.Nodup
  reg : ∀ f, f ∈ w.registry ↔ ∃ l h, w.files[f]? = some (.opened l h)
  handle : ∀ (f : Nat) l h, w.files[f]? = some (.opened l h) → w.handles[h]? = some true
  handle_inj : ∀ (f g : Nat) l l' h, w.files[f]? = some (.opened l h) → w.files[g]? = some (.opened l' h) →
    f = g

theorem inv_empty : Good {} where
  chain := by intro f l h e; simp at e
  listed := by intro d c p o e; simp at e
  nodup := List.nodup_nil
  reg := by intro f; simp
  handle := by intro f l h e; simp at e
  handle_inj := by intro f g l l' h e; simp at e

theorem closeDatas_get (ds : List Nat) (l : List DataSt) (k : Nat) :
    (closeDatas ds l)[k]? = if k ∈ ds then l[k]?.map fun _ => .closed else l[k]? := by
  unfold closeDatas
  induction ds generalizing l with
  | nil => simp
  | cons d ds ih =>
    rw [List.foldl_cons, ih]
    rw [List.getElem?_set]
    by_cases hk : d = k
    · subst hk
      by_cases hl : d < l.length
      · simp [hl]
      · have : l[d]? = none := List.getElem?_eq_none (by omega)
        simp [hl]
    · have hk' : ¬ k = d := fun e => hk e.symm
      simp [hk, hk']

theorem inv_closeFile {w : World} (hw : Good w) (f : Nat) : Good (closeFile w f) := by
  unfold closeFile
  cases hf : w.files[f]? with
  | none => exact hw
  | some s =>
    cases s with
    | closed => exact hw
    | opened l h =>
      have hlt : f < w.files.length := (List.getElem?_eq_some_iff.1 hf).1
      have hfile : ∀ g l' h', (w.files.set f .closed)[g]? = some (.opened l' h') ↔
          g ≠ f ∧ w.files[g]? = some (.opened l' h') := by
        intro g l' h'
        rw [List.getElem?_set]
        by_cases hg : f = g
        · subst hg
          simp [hlt]
        · simp [hg, Ne.symm hg]
      have hd : ∀ d c p o, (closeDatas (l.map (·.2)) w.datas)[d]? = some (.opened c p o) ↔
          d ∉ l.map (·.2) ∧ w.datas[d]? = some (.opened c p o) := by
        intro d c p o
        rw [closeDatas_get]
        by_cases hm : d ∈ l.map (·.2)
        · rw [if_pos hm]
          constructor
          · intro e
            cases hx : w.datas[d]? with
            | none => rw [hx] at e; cases e
            | some x => rw [hx] at e; injection e with e; cases e
          · intro e; exact absurd hm e.1
        · rw [if_neg hm]
          exact ⟨fun e => ⟨hm, e⟩, fun e => e.2⟩
      have hch : ∀ d, d ∈ l.map (·.2) → Chain w.datas d f := by
        intro d hm
        obtain ⟨p, hp, rfl⟩ := List.mem_map.1 hm
        exact hw.chain f l h hf p hp
      refine ⟨?_, ?_, ?_, ?_, ?_, ?_⟩
      · intro g l' h' hg p hp
        obtain ⟨hgf, hg⟩ := (hfile g l' h').1 hg
        have hnot : ∀ d, Chain w.datas d g → d ∉ l.map (·.2) :=
          fun d hc hm => hgf (chain_unique hc (hch d hm))
        have hc := hw.chain g l' h' hg p hp
        have hc0 := hc
        rcases hc with ⟨c, q, e1⟩ | ⟨c, q, d', c', q', e1, e2⟩
        · exact Or.inl ⟨c, q, (hd _ _ _ _).2 ⟨hnot _ hc0, e1⟩⟩
        · exact Or.inr ⟨c, q, d', c', q', (hd _ _ _ _).2 ⟨hnot _ hc0, e1⟩,
            (hd _ _ _ _).2 ⟨hnot _ (Or.inl ⟨c', q', e2⟩), e2⟩⟩
      · intro d c p o e
        obtain ⟨hm, e⟩ := (hd _ _ _ _).1 e
        obtain ⟨g, l', h', hg, hin⟩ := hw.listed d c p o e
        refine ⟨g, l', h', (hfile g l' h').2 ⟨?_, hg⟩, hin⟩
        rintro rfl
        rw [hf] at hg
        injection hg with hg
        injection hg with hg _
        subst hg
        exact hm hin
      · exact hw.nodup.erase f
      · intro g
        rw [hw.nodup.mem_erase_iff, hw.reg]
        constructor
        · rintro ⟨h1, l', h', h2⟩
          exact ⟨l', h', (hfile g l' h').2 ⟨h1, h2⟩⟩
        · rintro ⟨l', h', h2⟩
          obtain ⟨h1, h2⟩ := (hfile g l' h').1 h2
          exact ⟨h1, l', h', h2⟩
      · intro g l' h' hg
        obtain ⟨hgf, hg⟩ := (hfile g l' h').1 hg
        show (w.handles.set h false)[h']? = some true
        rw [List.getElem?_set_ne]
        · exact hw.handle g l' h' hg
        · rintro rfl
          exact hgf (hw.handle_inj g f l' l h hg hf)
      · intro g k l' l'' h' hg hk
        exact hw.handle_inj g k l' l'' h' ((hfile g l' h').1 hg).2 ((hfile k l'' h').1 hk).2

/-- what the loops of `File.__init__` have made so far -/
structure Built (fid base : Nat) (b : Build) : Prop where
  chain : ∀ p ∈ b.items, ∃ k, p.2 = base + k ∧
    ((∃ c q, b.made[k]? = some (.opened c q (.file fid))) ∨
      ∃ c q k' c' q', b.made[k]? = some (.opened c q (.data (base + k'))) ∧
        b.made[k']? = some (.opened c' q' (.file fid)))
  listed : ∀ k, k < b.made.length → base + k ∈ b.items.map (·.2)
  data : ∀ d, b.data = some d → ∃ k c q, d = base + k ∧ b.made[k]? = some (.opened c q (.file fid))

theorem get_snoc {α : Type} {l : List α} {x y : α} {k : Nat} (h : l[k]? = some x) :
    (l ++ [y])[k]? = some x := by
  rw [List.getElem?_append_left (List.getElem?_eq_some_iff.1 h).1]
  exact h

theorem built_subs {fid base : Nat} {gname : String} {d k0 : Nat} {c0 : Cls} {q0 : String}
    (hd : d = base + k0) (subs : List (String × String)) :
    ∀ {b : Build}, Built fid base b → b.made[k0]? = some (.opened c0 q0 (.file fid)) →
      Built fid base (addSubs base gname d subs b) := by
  induction subs with
  | nil => intro b hb _; exact hb
  | cons s rest ih =>
    obtain ⟨name, level⟩ := s
    intro b hb h0
    unfold addSubs
    cases hc : subClass level with
    | none => exact ih hb h0
    | some c =>
      refine ih ?_ (get_snoc h0)
      have hnew : (b.made ++ [DataSt.opened c (gname ++ "/" ++ name) (.data d)])[b.made.length]? =
          some (.opened c (gname ++ "/" ++ name) (.data d)) := by simp
      constructor
      · intro p hp
        rcases List.mem_append.1 hp with hp | hp
        · obtain ⟨k, e, h⟩ := hb.chain p hp
          refine ⟨k, e, ?_⟩
          rcases h with ⟨c, q, h⟩ | ⟨c, q, k', c', q', h, h'⟩
          · exact Or.inl ⟨c, q, get_snoc h⟩
          · exact Or.inr ⟨c, q, k', c', q', get_snoc h, get_snoc h'⟩
        · rw [List.mem_singleton] at hp
          subst hp
          refine ⟨b.made.length, rfl, Or.inr ⟨c, gname ++ "/" ++ name, k0, c0, q0, ?_, get_snoc h0⟩⟩
          rw [← hd]
          exact hnew
      · intro k hk
        show base + k ∈ (b.items ++ _).map (·.2)
        rw [List.map_append, List.mem_append]
        simp only [List.length_append, List.length_singleton] at hk
        by_cases hk' : k < b.made.length
        · exact Or.inl (hb.listed k hk')
        · right
          have : k = b.made.length := by omega
          subst this
          simp
      · intro d' hd'
        obtain ⟨k, c, q, e, h⟩ := hb.data d' hd'
        exact ⟨k, c, q, e, get_snoc h⟩

theorem built_groups {fid base : Nat} (gs : List GroupDesc) :
    ∀ b b' : Build, Built fid base b → addGroups fid base gs b = .ok b' → Built fid base b' := by
  induction gs with
  | nil =>
    intro b b' hb h
    injection h with h
    subst h
    exact hb
  | cons g rest ih =>
    intro b b' hb h
    unfold addGroups at h
    cases hc : classOf g with
    | error e => rw [hc] at h; cases h
    | ok o =>
      rw [hc] at h
      cases o with
      | none =>
        have h' : (match b.data with
          | some d => addGroups fid base rest
              (addSubs base g.name d g.subs { b with items := b.items ++ [(g.name, d)] })
          | none => .error .unboundLocal) = Except.ok b' := h
        cases hd : b.data with
        | none => simp only [hd] at h'; cases h'
        | some d =>
          simp only [hd] at h'
          obtain ⟨k0, c0, q0, e0, h0⟩ := hb.data d hd
          refine ih _ _ (built_subs (b := { b with items := b.items ++ [(g.name, d)], data := some d })
            e0 g.subs ?_ h0) h'
          constructor
          · intro p hp
            rcases List.mem_append.1 hp with hp | hp
            · exact hb.chain p hp
            · rw [List.mem_singleton] at hp
              subst hp
              exact ⟨k0, e0, Or.inl ⟨c0, q0, h0⟩⟩
          · intro k hk
            show base + k ∈ (b.items ++ _).map (·.2)
            rw [List.map_append, List.mem_append]
            exact Or.inl (hb.listed k hk)
          · intro d' hd'; exact hb.data d' (hd.trans hd')
      | some c =>
        have h' : addGroups fid base rest (addSubs base g.name (base + b.made.length) g.subs
            { made := b.made ++ [.opened c g.name (.file fid)]
              items := b.items ++ [(g.name, base + b.made.length)]
              data := some (base + b.made.length) }) = Except.ok b' := h
        have hnew : (b.made ++ [DataSt.opened c g.name (.file fid)])[b.made.length]? =
          some (.opened c g.name (.file fid)) := by simp
        refine ih _ _ (built_subs rfl g.subs ?_ hnew) h'
        constructor
        · intro p hp
          rcases List.mem_append.1 hp with hp | hp
          · obtain ⟨k, e, h⟩ := hb.chain p hp
            refine ⟨k, e, ?_⟩
            rcases h with ⟨c, q, h⟩ | ⟨c, q, k', c', q', h, h'⟩
            · exact Or.inl ⟨c, q, get_snoc h⟩
            · exact Or.inr ⟨c, q, k', c', q', get_snoc h, get_snoc h'⟩
          · rw [List.mem_singleton] at hp
            subst hp
            exact ⟨b.made.length, rfl, Or.inl ⟨c, _, hnew⟩⟩
        · intro k hk
          show base + k ∈ (b.items ++ _).map (·.2)
          rw [List.map_append, List.mem_append]
          simp only [List.length_append, List.length_singleton] at hk
          by_cases hk' : k < b.made.length
          · exact Or.inl (hb.listed k hk')
          · right
            have : k = b.made.length := by omega
            subst this
            simp
        · intro d hd
          injection hd with hd
          exact ⟨b.made.length, c, g.name, hd.symm, hnew⟩

theorem built_empty (fid base : Nat) : Built fid base {} where
  chain := by intro p hp; cases hp
  listed := by intro k hk; simp at hk
  data := by intro d hd; cases hd

theorem get_append_right {α : Type} (l r : List α) (k : Nat) : (l ++ r)[l.length + k]? = r[k]? := by
  rw [List.getElem?_append_right (by omega), Nat.add_sub_cancel_left]

theorem get_append_of_some {α : Type} {l r : List α} {k : Nat} {x : α} (h : l[k]? = some x) :
    (l ++ r)[k]? = some x := by
  rw [List.getElem?_append_left (List.getElem?_eq_some_iff.1 h).1]
  exact h

theorem get_snoc_inv {α : Type} {l : List α} {x y : α} {k : Nat} (h : (l ++ [y])[k]? = some x) :
    l[k]? = some x ∨ k = l.length ∧ x = y := by
  by_cases hk : k < l.length
  · rw [List.getElem?_append_left hk] at h
    exact Or.inl h
  · have hk2 := (List.getElem?_eq_some_iff.1 h).1
    simp only [List.length_append, List.length_singleton] at hk2
    have : k = l.length := by omega
    subst this
    simp at h
    exact Or.inr ⟨rfl, h.symm⟩

theorem inv_openFile {w : World} (hw : Good w) (gs : List GroupDesc) : Good (openFile w gs).1 := by
  unfold openFile
  cases hb : addGroups w.files.length w.datas.length gs {} with
  | error e =>
    refine ⟨hw.chain, hw.listed, hw.nodup, hw.reg, ?_, hw.handle_inj⟩
    intro f l h hf
    exact get_append_of_some (hw.handle f l h hf)
  | ok b =>
    have hbuilt := built_groups gs _ _ (built_empty _ _) hb
    have hnofile : ∀ l h, w.files[w.files.length]? ≠ some (FileSt.opened l h) := by
      intro l h e
      rw [List.getElem?_eq_none (Nat.le_refl _)] at e
      cases e
    refine ⟨?_, ?_, ?_, ?_, ?_, ?_⟩
    · intro f l h hf p hp
      rcases get_snoc_inv hf with hf | ⟨rfl, hf1⟩
      · rcases hw.chain f l h hf p hp with ⟨c, q, e⟩ | ⟨c, q, d', c', q', e, e'⟩
        · exact Or.inl ⟨c, q, get_append_of_some e⟩
        · exact Or.inr ⟨c, q, d', c', q', get_append_of_some e, get_append_of_some e'⟩
      · injection hf1 with hf1 _
        subst hf1
        obtain ⟨k, e, hk⟩ := hbuilt.chain p hp
        rw [e]
        rcases hk with ⟨c, q, hk⟩ | ⟨c, q, k', c', q', hk, hk'⟩
        · exact Or.inl ⟨c, q, by rw [get_append_right]; exact hk⟩
        · exact Or.inr ⟨c, q, _, c', q', by rw [get_append_right]; exact hk,
            by rw [get_append_right]; exact hk'⟩
    · intro d c p o hd
      by_cases hlt : d < w.datas.length
      · have hd' : w.datas[d]? = some (.opened c p o) := by
          have : (w.datas ++ b.made)[d]? = some (.opened c p o) := hd
          rwa [List.getElem?_append_left hlt] at this
        obtain ⟨f, l, h, hf, hin⟩ := hw.listed d c p o hd'
        exact ⟨f, l, h, get_append_of_some hf, hin⟩
      · have h2 : (w.datas ++ b.made)[d]? = some (.opened c p o) := hd
        obtain ⟨k, rfl⟩ : ∃ k, d = w.datas.length + k := ⟨d - w.datas.length, by omega⟩
        rw [get_append_right] at h2
        refine ⟨w.files.length, b.items, w.handles.length, by simp, ?_⟩
        exact hbuilt.listed k (List.getElem?_eq_some_iff.1 h2).1
    · show (w.registry ++ [w.files.length]).Nodup
      rw [List.nodup_append]
      refine ⟨hw.nodup, by simp, ?_⟩
      intro a ha b' hb' e
      rw [List.mem_singleton] at hb'
      subst hb'
      subst e
      obtain ⟨l, h, hf⟩ := (hw.reg _).1 ha
      exact hnofile l h hf
    · intro f
      show f ∈ w.registry ++ [w.files.length] ↔ _
      rw [List.mem_append, List.mem_singleton, hw.reg]
      constructor
      · rintro (⟨l, h, hf⟩ | rfl)
        · exact ⟨l, h, get_append_of_some hf⟩
        · exact ⟨b.items, w.handles.length, by simp⟩
      · rintro ⟨l, h, hf⟩
        rcases get_snoc_inv hf with hf | ⟨rfl, _⟩
        · exact Or.inl ⟨l, h, hf⟩
        · exact Or.inr rfl
    · intro f l h hf
      rcases get_snoc_inv hf with hf | ⟨rfl, hf1⟩
      · exact get_append_of_some (hw.handle f l h hf)
      · injection hf1 with _ hf1
        subst hf1
        simp
    · intro f g l l' h hf hg
      have hfresh : ∀ (k : Nat) l0, w.files[k]? = some (.opened l0 w.handles.length) → False := by
        intro k l0 hk
        have := hw.handle k l0 _ hk
        rw [List.getElem?_eq_none (Nat.le_refl _)] at this
        cases this
      rcases get_snoc_inv hf with hf1 | ⟨rfl, hf1⟩ <;> rcases get_snoc_inv hg with hg1 | ⟨rfl, hg1⟩
      · exact hw.handle_inj f g l l' h hf1 hg1
      · injection hg1 with _ hg1
        subst hg1
        exact (hfresh f l hf1).elim
      · injection hf1 with _ hf1
        subst hf1
        exact (hfresh g l' hg1).elim
      · rfl

theorem openSif_world (w : World) (gs : List GroupDesc) (name : String) :
    (openSif w gs name).1 = (openFile w gs).1 := by
  unfold openSif
  cases h : openFile w gs with
  | mk w' r => cases r <;> rfl

theorem closeDataAux_cases (n : Nat) (w : World) (d : Nat) :
    closeDataAux n w d = w ∨ ∃ f, closeDataAux n w d = closeFile w f := by
  induction n generalizing d with
  | zero => exact Or.inl rfl
  | succ n ih =>
    unfold closeDataAux
    split
    · rename_i f _
      exact Or.inr ⟨f, rfl⟩
    · rename_i d' _
      exact ih d'
    · exact Or.inl rfl

theorem inv_closeLoop {n : Nat} (order : List Nat) : ∀ w, Good w → Good (closeLoop n order w).1 := by
  induction order with
  | nil =>
    intro w hw
    unfold closeLoop
    split <;> exact hw
  | cons f rest ih =>
    intro w hw
    unfold closeLoop
    split
    · exact ih _ (inv_closeFile hw f)
    · exact hw

theorem registry_closeFile {w : World} (hw : Good w) {f : Nat} (hf : f ∈ w.registry) :
    (closeFile w f).registry = w.registry.erase f ∧
      (closeFile w f).registry.length + 1 = w.registry.length := by
  obtain ⟨l, h, e⟩ := (hw.reg f).1 hf
  have e2 : (closeFile w f).registry = w.registry.erase f := by
    unfold closeFile
    rw [e]
  refine ⟨e2, ?_⟩
  rw [e2, List.length_erase_of_mem hf]
  have := List.length_pos_of_mem hf
  omega

/-- closing all: nothing to do, or one file is closed and `RuntimeError` raised -/
theorem closeAll_cases {w : World} (hw : Good w) {order : List Nat} (ho : order.Perm w.registry) :
    (w.registry = [] ∧ closeAll w order = (w, .ok ())) ∨
    ∃ f, f ∈ w.registry ∧ closeAll w order = (closeFile w f, .error .runtimeError) := by
  cases order with
  | nil =>
    have hr : w.registry = [] := List.nil_perm.1 ho
    left
    refine ⟨hr, ?_⟩
    unfold closeAll closeLoop
    rw [if_pos rfl]
    show ({ w with registry := [] }, _) = _
    rw [← hr]
  | cons f rest =>
    right
    have hf : f ∈ w.registry := ho.mem_iff.1 List.mem_cons_self
    refine ⟨f, hf, ?_⟩
    have hl := (registry_closeFile hw hf).2
    have : closeLoop w.registry.length (f :: rest) w = (closeFile w f, .error .runtimeError) := by
      unfold closeLoop
      rw [if_pos rfl]
      cases rest with
      | nil =>
        unfold closeLoop
        rw [if_neg (by omega)]
      | cons g rest =>
        unfold closeLoop
        rw [if_neg (by omega)]
    unfold closeAll
    rw [this]

theorem inv_step {w w' : World} (hw : Good w) (h : Step w w') : Good w' := by
  cases h with
  | openFile gs => exact inv_openFile hw gs
  | openSif gs name => rw [openSif_world]; exact inv_openFile hw gs
  | closeFile f => exact inv_closeFile hw f
  | closeData d =>
    rcases closeDataAux_cases (w.datas.length + 1) w d with e | ⟨f, e⟩
    · unfold closeData; rw [e]; exact hw
    · unfold closeData; rw [e]; exact inv_closeFile hw f
  | closeAll order ho =>
    rcases closeAll_cases hw ho with ⟨_, e⟩ | ⟨f, _, e⟩
    · rw [e]; exact hw
    · rw [e]; exact inv_closeFile hw f

theorem inv_steps {w w' : World} (hw : Good w) (h : Steps w w') : Good w' := by
  induction h with
  | refl => exact hw
  | snoc _ hs ih => exact inv_step ih hs

theorem inv_reachable {w : World} (h : Reachable w) : Good w := inv_steps inv_empty h

/-! ## Closed objects stay closed -/

/-- the state of an existing object changes only from open to closed -/
structure Later (w w' : World) : Prop where
  files : ∀ f : Nat, w.files[f]? = some .closed → w'.files[f]? = some .closed
  datas : ∀ d : Nat, w.datas[d]? = some .closed → w'.datas[d]? = some .closed
  handles : ∀ h : Nat, w.handles[h]? = some false → w'.handles[h]? = some false
  flen : w.files.length ≤ w'.files.length
  dlen : w.datas.length ≤ w'.datas.length

theorem later_refl (w : World) : Later w w := ⟨fun _ h => h, fun _ h => h, fun _ h => h, le_refl _, le_refl _⟩

theorem closeFile_lengths (w : World) (f : Nat) :
    (closeFile w f).files.length = w.files.length ∧ (closeFile w f).datas.length = w.datas.length := by
  unfold closeFile
  split
  · refine ⟨List.length_set .., ?_⟩
    unfold closeDatas
    rename_i l h _
    clear * -
    show (List.foldl _ w.datas (l.map (·.2))).length = _
    generalize w.datas = ds
    induction l generalizing ds with
    | nil => rfl
    | cons a l ih => rw [List.map_cons, List.foldl_cons, ih, List.length_set]
  · exact ⟨rfl, rfl⟩

theorem later_closeFile (w : World) (f : Nat) : Later w (closeFile w f) := by
  refine ⟨?_, ?_, ?_, (closeFile_lengths w f).1.ge, (closeFile_lengths w f).2.ge⟩
  · intro g hg
    unfold closeFile
    split
    · rename_i l h hf
      show (w.files.set f .closed)[g]? = _
      rw [List.getElem?_set]
      by_cases e : f = g
      · subst e
        rw [hf] at hg
        injection hg with hg
        cases hg
      · rw [if_neg e]
        exact hg
    · exact hg
  · intro d hd
    unfold closeFile
    split
    · rename_i l h hf
      show (closeDatas _ w.datas)[d]? = _
      rw [closeDatas_get, hd]
      split <;> rfl
    · exact hd
  · intro k hk
    unfold closeFile
    split
    · rename_i l h hf
      show (w.handles.set h false)[k]? = _
      rw [List.getElem?_set]
      have := (List.getElem?_eq_some_iff.1 hk).1
      split
      · rename_i e
        rw [e, if_pos this]
      · exact hk
    · exact hk

theorem later_openFile (w : World) (gs : List GroupDesc) : Later w (openFile w gs).1 := by
  unfold openFile
  split
  · refine ⟨fun f h => get_append_of_some h, fun d h => get_append_of_some h,
      fun d h => get_append_of_some h, ?_, ?_⟩ <;> simp
  · exact ⟨fun _ h => h, fun _ h => h, fun d h => get_append_of_some h, le_refl _, le_refl _⟩

theorem later_step {w w' : World} (hw : Good w) (h : Step w w') : Later w w' := by
  cases h with
  | openFile gs => exact later_openFile w gs
  | openSif gs name => rw [openSif_world]; exact later_openFile w gs
  | closeFile f => exact later_closeFile w f
  | closeData d =>
    rcases closeDataAux_cases (w.datas.length + 1) w d with e | ⟨f, e⟩
    · unfold closeData; rw [e]; exact later_refl w
    · unfold closeData; rw [e]; exact later_closeFile w f
  | closeAll order ho =>
    rcases closeAll_cases hw ho with ⟨_, e⟩ | ⟨f, _, e⟩
    · rw [e]; exact later_refl w
    · rw [e]; exact later_closeFile w f

theorem later_steps {w w' : World} (hw : Good w) (h : Steps w w') : Later w w' := by
  induction h with
  | refl => exact later_refl w
  | snoc hs h ih =>
    have h2 := later_step (inv_steps hw hs) h
    exact ⟨fun f hf => h2.files f (ih.files f hf), fun d hd => h2.datas d (ih.datas d hd),
      fun d hd => h2.handles d (ih.handles d hd),
      ih.flen.trans h2.flen, ih.dlen.trans h2.dlen⟩

/-! ## C25 -/

/-- the File refuses every dict operation -/
def FileRefuses (w : World) (f : Nat) : Prop :=
  keys w f = .error .closedFile ∧ values w f = .error .closedFile ∧
  items w f = .error .closedFile ∧ iterate w f = .error .closedFile ∧
  ∀ name, getItem w f name = .error .closedFile ∧ get w f name = .error .closedFile ∧
    contains w f name = .error .closedFile

theorem refuses_of_closed {w : World} {f : Nat} (h : w.files[f]? = some .closed) :
    FileRefuses w f := by
  have e : items w f = .error .closedFile := by
    unfold items
    rw [h]
  refine ⟨?_, ?_, e, ?_, ?_⟩
  · unfold keys; rw [e]; rfl
  · unfold values; rw [e]; rfl
  · unfold iterate values; rw [e]; rfl
  · intro name
    refine ⟨?_, ?_, ?_⟩
    · unfold getItem; rw [e]; rfl
    · unfold get; rw [e]; rfl
    · unfold contains; rw [e]; rfl

/-- **After `close` on a File every dict operation of it raises `ClosedFileError` and all its data
objects and its HDF5 handle are closed, whatever is called afterwards.** -/
theorem closed_forever {w w' : World} {f : Nat} {l : List (String × Nat)} (hw : Reachable w)
    (hl : items w f = .ok l) (hs : Steps (closeFile w f) w') :
    FileRefuses w' f ∧ (∀ p ∈ l, dataOpen w' p.2 = false) ∧
      ∃ h, w.files[f]? = some (.opened l h) ∧ w'.handles[h]? = some false := by
  have hinv := inv_reachable hw
  have hlater := later_steps (inv_closeFile hinv f) hs
  unfold items at hl
  split at hl
  · rename_i l' h hf
    injection hl with hl
    subst hl
    refine ⟨?_, ?_, h, hf, ?_⟩
    · apply refuses_of_closed
      apply hlater.files
      unfold closeFile
      rw [hf]
      show (w.files.set f .closed)[f]? = _
      rw [List.getElem?_set]
      simp [(List.getElem?_eq_some_iff.1 hf).1]
    · intro p hp
      have : w'.datas[p.2]? = some .closed := by
        apply hlater.datas
        unfold closeFile
        rw [hf]
        show (closeDatas _ w.datas)[p.2]? = _
        rw [closeDatas_get, if_pos (List.mem_map.2 ⟨p, hp, rfl⟩)]
        rcases hinv.chain f l' h hf p hp with ⟨c, q, e⟩ | ⟨c, q, d', c', q', e, e'⟩ <;> rw [e] <;> rfl
      unfold dataOpen
      rw [this]
    · apply hlater.handles
      have hlt := (List.getElem?_eq_some_iff.1 (hinv.handle f l' h hf)).1
      unfold closeFile
      rw [hf]
      show (w.handles.set h false)[h]? = _
      rw [List.getElem?_set, if_pos rfl, if_pos hlt]
  · cases hl

/-- **`close` on any open data object is `close` on its File**: the one whose dict it is in. -/
theorem close_via_data {w : World} {d : Nat} (hw : Reachable w) (hd : dataOpen w d = true) :
    ∃ f l, items w f = .ok l ∧ d ∈ l.map (·.2) ∧ closeData w d = closeFile w f := by
  have hinv := inv_reachable hw
  unfold dataOpen at hd
  split at hd
  · rename_i c p o e
    obtain ⟨f, l, h, hf, hin⟩ := hinv.listed d c p o e
    refine ⟨f, l, ?_, hin, ?_⟩
    · unfold items; rw [hf]
    · obtain ⟨p', hp', rfl⟩ := List.mem_map.1 hin
      have hlen := (List.getElem?_eq_some_iff.1 e).1
      rcases hinv.chain f l h hf p' hp' with ⟨c1, q1, e1⟩ | ⟨c1, q1, d', c', q', e1, e2⟩
      · unfold closeData closeDataAux
        rw [e1]
      · have : w.datas.length = (w.datas.length - 1) + 1 := by omega
        unfold closeData closeDataAux
        rw [e1]
        show closeDataAux w.datas.length w d' = _
        rw [this]
        unfold closeDataAux
        rw [e2]
  · cases hd

/-- **Other files are unaffected**: their dicts, data objects and handles stay as they are. -/
theorem others_unaffected {w : World} {f g : Nat} {l : List (String × Nat)} (hw : Reachable w)
    (hne : g ≠ f) (hl : items w g = .ok l) :
    items (closeFile w f) g = .ok l ∧ ∀ p ∈ l, dataOpen (closeFile w f) p.2 = true ∧
      (closeFile w f).datas[p.2]? = w.datas[p.2]? := by
  have hinv := inv_reachable hw
  have hinv' := inv_closeFile hinv f
  have hl0 := hl
  unfold items at hl
  split at hl
  · rename_i l' h hg
    injection hl with hl
    subst hl
    have hfile : (closeFile w f).files[g]? = some (.opened l' h) := by
      unfold closeFile
      split
      · show (w.files.set f .closed)[g]? = _
        rw [List.getElem?_set_ne (Ne.symm hne)]
        exact hg
      · exact hg
    refine ⟨by unfold items; rw [hfile], ?_⟩
    intro p hp
    have hc := hinv.chain g l' h hg p hp
    have hsame : (closeFile w f).datas[p.2]? = w.datas[p.2]? := by
      unfold closeFile
      split
      · rename_i l2 h2 hf
        show (closeDatas _ w.datas)[p.2]? = _
        rw [closeDatas_get, if_neg]
        intro hm
        obtain ⟨p', hp', e⟩ := List.mem_map.1 hm
        have := hinv.chain f l2 h2 hf p' hp'
        have hm2 : p'.2 = p.2 := e
        rw [hm2] at this
        exact hne (chain_unique hc this)
      · rfl
    refine ⟨?_, hsame⟩
    unfold dataOpen
    rw [hsame]
    rcases hc with ⟨c, q, e⟩ | ⟨c, q, d', c', q', e, e'⟩ <;> rw [e]
  · cases hl

/-- **An open file has only open data objects, an open handle, and is registered.** -/
theorem open_file {w : World} {f : Nat} {l : List (String × Nat)} (hw : Reachable w)
    (hl : items w f = .ok l) : (∀ p ∈ l, dataOpen w p.2 = true) ∧ f ∈ w.registry := by
  have hinv := inv_reachable hw
  unfold items at hl
  split at hl
  · rename_i l' h hg
    injection hl with hl
    subst hl
    refine ⟨?_, (hinv.reg f).2 ⟨_, _, hg⟩⟩
    intro p hp
    unfold dataOpen
    rcases hinv.chain f l' h hg p hp with ⟨c, q, e⟩ | ⟨c, q, d', c', q', e, e'⟩ <;> rw [e]
  · cases hl

/-- **`close` is idempotent** on Files and on data objects: the second call changes nothing. -/
theorem close_idempotent (w : World) (f : Nat) : closeFile (closeFile w f) f = closeFile w f := by
  have key : ∀ v : World, (∀ l h, v.files[f]? ≠ some (.opened l h)) → closeFile v f = v := by
    intro v hv
    unfold closeFile
    split
    · rename_i l h e
      exact absurd e (hv l h)
    · rfl
  apply key
  intro l h
  unfold closeFile
  split
  · rename_i l' h' e
    show (w.files.set f .closed)[f]? ≠ _
    rw [List.getElem?_set]
    simp [(List.getElem?_eq_some_iff.1 e).1]
  · rename_i hno
    exact hno l h

theorem close_data_idempotent {w : World} {d : Nat} (hd : dataOpen w d = false) :
    closeData w d = w := by
  unfold dataOpen at hd
  unfold closeData closeDataAux
  split
  · rename_i c p f e
    rw [e] at hd
    cases hd
  · rename_i c p d' e
    rw [e] at hd
    cases hd
  · rfl

/-! ## C26 -/

/-- **`close_all_files` with no open file returns normally.** -/
theorem close_all_none {w : World} {order : List Nat} (hw : Reachable w) (hr : w.registry = [])
    (ho : order.Perm w.registry) : closeAll w order = (w, .ok ()) := by
  rcases closeAll_cases (inv_reachable hw) ho with ⟨_, e⟩ | ⟨f, hf, _⟩
  · exact e
  · rw [hr] at hf
    cases hf

/-- **`close_all_files` closes exactly one file and raises `RuntimeError` whenever any file is
open.** -/
theorem close_all_raises {w : World} {order : List Nat} (hw : Reachable w) (hr : w.registry ≠ [])
    (ho : order.Perm w.registry) :
    ∃ f, f ∈ w.registry ∧ closeAll w order = (closeFile w f, .error .runtimeError) ∧
      (closeFile w f).registry.length + 1 = w.registry.length := by
  rcases closeAll_cases (inv_reachable hw) ho with ⟨h, _⟩ | ⟨f, hf, e⟩
  · exact absurd h hr
  · exact ⟨f, hf, e, (registry_closeFile (inv_reachable hw) hf).2⟩

/-- `n` calls of `close_all_files`, exceptions ignored -/
inductive Calls : Nat → World → World → Prop
  | none (w : World) : Calls 0 w w
  | call {n : Nat} {w w' : World} {order : List Nat} : order.Perm w.registry →
      Calls n (closeAll w order).1 w' → Calls (n + 1) w w'

/-- **What is missing to C26**: the call has to be repeated as often as there are open files; then
every file of the session is closed. -/
theorem close_all_partial {w w' : World} (hw : Reachable w) (h : Calls w.registry.length w w') :
    w'.registry = [] ∧ ∀ f, (∃ s, w.files[f]? = some s) → FileRefuses w' f := by
  have main : ∀ n w w', Good w → w.registry.length = n → Calls n w w' →
      w'.registry = [] ∧ Good w' ∧ Later w w' := by
    intro n
    induction n with
    | zero =>
      intro w w' hi hn hc
      cases hc
      exact ⟨List.length_eq_zero_iff.1 hn, hi, later_refl w⟩
    | succ n ih =>
      intro w w' hi hn hc
      cases hc with
      | call ho hc =>
        rcases closeAll_cases hi ho with ⟨hr, _⟩ | ⟨f, hf, e⟩
        · rw [hr] at hn; cases hn
        · rw [e] at hc
          have hlen := (registry_closeFile hi hf).2
          obtain ⟨h1, h2, h3⟩ := ih _ _ (inv_closeFile hi f) (by omega) hc
          have h4 := later_closeFile w f
          exact ⟨h1, h2, fun g hg => h3.files g (h4.files g hg),
            fun d hd => h3.datas d (h4.datas d hd),
            fun d hd => h3.handles d (h4.handles d hd), h4.flen.trans h3.flen, h4.dlen.trans h3.dlen⟩
  obtain ⟨h1, h2, h3⟩ := main _ w w' (inv_reachable hw) rfl h
  refine ⟨h1, ?_⟩
  intro f ⟨s, hs⟩
  apply refuses_of_closed
  have hlt : f < w'.files.length := lt_of_lt_of_le (List.getElem?_eq_some_iff.1 hs).1 h3.flen
  cases hx : w'.files[f]? with
  | none => rw [List.getElem?_eq_none_iff] at hx; omega
  | some x =>
    cases x with
    | closed => rfl
    | opened l hh =>
      have := (h2.reg f).2 ⟨l, hh, hx⟩
      rw [h1] at this
      cases this

end Verif.Data.Life
