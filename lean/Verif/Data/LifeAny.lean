import Verif.Data.LifeOpen
/-!
# C81: what a File holds, whatever the attributes of its groups say

`open_holds_partial` asks that the attributes of every group name a class.  Here no such condition
is made: the listing says for each key which group its object reads.
-/

namespace Verif.Data.Life
open Verif Verif.Data

/-! ## Specification -/

/-- a key of a File: the group its object reads, the class of the object, the key of the parent
group (`none`: the object is linked to the File) -/
structure Shown where
  key : String
  path : String
  cls : Cls
  parent : Option String := none

/-- a superelement below a group is shown as itself -/
def Entry.shown (e : Entry) : Shown := { key := e.name, path := e.name, cls := e.cls, parent := e.parent }

/-- what the groups are shown as, in order; the first argument is the latest group that had a class,
and that class.  A group whose attributes name no class is shown as that latest group. -/
inductive Shows : Option (String × Cls) → List GroupDesc → List Shown → Prop
  | nil {cur : Option (String × Cls)} : Shows cur [] []
  | own {cur : Option (String × Cls)} {g : GroupDesc} {c : Cls} {rest : List GroupDesc}
      {es : List Entry} {l : List Shown} : IsClass g c → SubListing g.name g.subs es →
      Shows (some (g.name, c)) rest l →
      Shows cur (g :: rest) ({ key := g.name, path := g.name, cls := c } :: es.map Entry.shown ++ l)
  | other {n : String} {c : Cls} {g : GroupDesc} {rest : List GroupDesc} {es : List Entry}
      {l : List Shown} : NoClass g → SubListing g.name g.subs es → Shows (some (n, c)) rest l →
      Shows (some (n, c)) (g :: rest) ({ key := g.name, path := n, cls := c } :: es.map Entry.shown ++ l)

/-- the attribute `file` of the object of a key -/
def LinkOk (f : Nat) (l : List (String × Nat)) (e : Shown) (o : Owner) : Prop :=
  match e.parent with
  | none => o = .file f
  | some n => ∃ d, (n, d) ∈ l ∧ o = .data d

/-- what the world looks like after opening a file that shows `es` -/
structure Opens (w w' : World) (f : Nat) (es : List Shown) (l : List (String × Nat)) : Prop where
  items : items w' f = .ok l
  all : List.Forall₂ (fun (e : Shown) (p : String × Nat) => p.1 = e.key ∧ (e.path, p.2) ∈ l ∧
    w.datas.length ≤ p.2 ∧
    ∃ o, w'.datas[p.2]? = some (.opened e.cls e.path o) ∧ LinkOk f l e o) es l
  registered : w'.registry = w.registry ++ [f]
  files : ∀ g : Nat, g < w.files.length → w'.files[g]? = w.files[g]?
  datas : ∀ d : Nat, d < w.datas.length → w'.datas[d]? = w.datas[d]?

/-! ## Proofs -/

structure Laid (f base : Nat) (cur : Option (String × Cls)) (es : List Shown) (b : Build) : Prop where
  all : List.Forall₂ (fun (e : Shown) (p : String × Nat) => p.1 = e.key ∧ (e.path, p.2) ∈ b.items ∧
    ∃ k o, p.2 = base + k ∧ b.made[k]? = some (.opened e.cls e.path o) ∧ LinkOk f b.items e o) es b.items
  none : cur = none → b.data = none
  some : ∀ n c, cur = some (n, c) → ∃ k, b.data = some (base + k) ∧ (n, base + k) ∈ b.items ∧
    b.made[k]? = some (.opened c n (.file f))

theorem linkOk_append {f : Nat} {l r : List (String × Nat)} {e : Shown} {o : Owner}
    (h : LinkOk f l e o) : LinkOk f (l ++ r) e o := by
  unfold LinkOk at *
  cases he : e.parent with
  | none => rw [he] at h; exact h
  | some n =>
    rw [he] at h
    obtain ⟨d, h1, h2⟩ := h
    exact ⟨d, List.mem_append.2 (Or.inl h1), h2⟩

theorem get_append_left {α : Type} {l r : List α} {k : Nat} {a : α} (h : l[k]? = some a) :
    (l ++ r)[k]? = some a := by
  rw [List.getElem?_append_left (List.getElem?_eq_some_iff.1 h).1]
  exact h

/-- one more key, with or without a new object -/
theorem Laid.snoc {f base k : Nat} {cur cur' : Option (String × Cls)} {es : List Shown} {b : Build}
    {e : Shown} {o : Owner} {new : List DataSt} {dat : Option Nat} (h : Laid f base cur es b)
    (hp : (e.path, base + k) ∈ b.items ∨ e.path = e.key)
    (hk : (b.made ++ new)[k]? = .some (.opened e.cls e.path o)) (ho : LinkOk f b.items e o)
    (hn : cur' = .none → dat = .none)
    (hs : ∀ n c, cur' = .some (n, c) → ∃ k', dat = .some (base + k') ∧
      (n, base + k') ∈ b.items ++ [(e.key, base + k)] ∧
      (b.made ++ new)[k']? = .some (.opened c n (.file f))) :
    Laid f base cur' (es ++ [e])
      { made := b.made ++ new, items := b.items ++ [(e.key, base + k)], data := dat } := by
  refine ⟨?_, hn, hs⟩
  refine forall₂_snoc (h.all.imp ?_) ⟨rfl, ?_, k, o, rfl, hk, linkOk_append ho⟩
  · rintro e' p ⟨h1, h2, k', o', h3, h4, h5⟩
    exact ⟨h1, List.mem_append.2 (Or.inl h2), k', o', h3, get_append_left h4, linkOk_append h5⟩
  · rcases hp with hp | hp
    · exact List.mem_append.2 (Or.inl hp)
    · rw [hp]
      exact List.mem_append.2 (Or.inr (List.mem_singleton.2 rfl))

theorem laid_subs {f base d : Nat} {g : String} {subs : List (String × String)} {es' : List Entry}
    {cur : Option (String × Cls)} (hs : SubListing g subs es') : ∀ {es : List Shown} {b : Build},
    Laid f base cur es b → (g, d) ∈ b.items →
    Laid f base cur (es ++ es'.map Entry.shown) (addSubs base g d subs b) := by
  have step : ∀ {es : List Shown} {b : Build} (n : String) (c : Cls), Laid f base cur es b →
      (g, d) ∈ b.items →
      Laid f base cur (es ++ [Entry.shown { name := n, cls := c, parent := some g }])
        { b with made := b.made ++ [.opened c n (.data d)]
                 items := b.items ++ [(n, base + b.made.length)] } := by
    intro es b n c h hin
    refine h.snoc (e := Entry.shown { name := n, cls := c, parent := some g }) (o := .data d)
      (Or.inr rfl) (by simp [Entry.shown]) ⟨d, hin, rfl⟩ h.none ?_
    intro m c' hc
    obtain ⟨k, h1, h2, h3⟩ := h.some m c' hc
    exact ⟨k, h1, List.mem_append.2 (Or.inl h2), get_append_left h3⟩
  induction hs with
  | nil =>
    intro es b h _
    rw [List.map_nil, List.append_nil]
    exact h
  | @inter n rest es2 hs ih =>
    intro es b h hin
    have := ih (step (g ++ "/" ++ n) .inter h hin) (List.mem_append.2 (Or.inl hin))
    rw [List.append_assoc] at this
    exact this
  | @first n rest es2 hs ih =>
    intro es b h hin
    have := ih (step (g ++ "/" ++ n) .first h hin) (List.mem_append.2 (Or.inl hin))
    rw [List.append_assoc] at this
    exact this
  | @other n l rest es2 h1 h2 hs ih =>
    intro es b h hin
    have e : addSubs base g d ((n, l) :: rest) b = addSubs base g d rest b := by
      conv => lhs; unfold addSubs
      have : subClass l = none := by
        unfold subClass
        rw [if_neg h1, if_neg h2]
      rw [this]
    rw [e]
    exact ih h hin

theorem addGroups_other {f base d : Nat} {g : GroupDesc} (rest : List GroupDesc) (b : Build)
    (h : NoClass g) (hd : b.data = some d) : addGroups f base (g :: rest) b =
      addGroups f base rest (addSubs base g.name d g.subs { b with items := b.items ++ [(g.name, d)] }) := by
  conv => lhs; unfold addGroups
  rw [classOf_none h]
  show (match b.data with
    | some d => addGroups f base rest
        (addSubs base g.name d g.subs { b with items := b.items ++ [(g.name, d)] })
    | none => .error .unboundLocal) = _
  rw [hd]

theorem laid_groups {f base : Nat} {gs : List GroupDesc} {cur : Option (String × Cls)}
    {l : List Shown} (hl : Shows cur gs l) : ∀ {es : List Shown} {b : Build}, Laid f base cur es b →
      ∃ b' cur', addGroups f base gs b = .ok b' ∧ Laid f base cur' (es ++ l) b' := by
  induction hl with
  | nil =>
    intro es b h
    exact ⟨b, _, rfl, by rw [List.append_nil]; exact h⟩
  | @own cur g c rest es1 l hc hs hr ih =>
    intro es b h
    have h1 : Laid f base (some (g.name, c)) (es ++ [{ key := g.name, path := g.name, cls := c }])
        { made := b.made ++ [.opened c g.name (.file f)]
          items := b.items ++ [(g.name, base + b.made.length)]
          data := some (base + b.made.length) } := by
      refine h.snoc (e := { key := g.name, path := g.name, cls := c }) (o := .file f) (Or.inr rfl)
        (by simp) rfl (fun h => by cases h) ?_
      rintro n c' ⟨rfl, rfl⟩
      exact ⟨_, rfl, by simp, by simp⟩
    have h2 := laid_subs (d := base + b.made.length) hs h1 (by simp)
    obtain ⟨b', cur', h3, h4⟩ := ih h2
    refine ⟨b', cur', ?_, ?_⟩
    · rw [addGroups_known _ _ hc]
      exact h3
    · simpa using h4
  | @other n c g rest es1 l hc hs hr ih =>
    intro es b h
    obtain ⟨k, hk1, hk2, hk3⟩ := h.some n c rfl
    have h1 : Laid f base (some (n, c)) (es ++ [{ key := g.name, path := n, cls := c }])
        { made := b.made ++ [], items := b.items ++ [(g.name, base + k)], data := b.data } := by
      refine h.snoc (e := { key := g.name, path := n, cls := c }) (o := .file f) (Or.inl hk2)
        (get_append_left hk3) rfl (fun h => by cases h) ?_
      rintro n' c' ⟨rfl, rfl⟩
      exact ⟨k, hk1, List.mem_append.2 (Or.inl hk2), get_append_left hk3⟩
    rw [List.append_nil] at h1
    have h2 := laid_subs (d := base + k) hs h1 (by simp)
    obtain ⟨b', cur', h3, h4⟩ := ih h2
    refine ⟨b', cur', ?_, ?_⟩
    · rw [addGroups_other _ _ hc hk1]
      exact h3
    · simpa using h4

/-- the first argument is `none` at the start of a file -/
theorem laid_empty (f base : Nat) : Laid f base none [] {} :=
  ⟨.nil, fun _ => rfl, fun _ _ h => by cases h⟩

/-- **Opening a file whose groups have any attributes**: every key of the listing gives an open
object that reads the group shown (which is the group of that name if its attributes name a class,
and the latest group before it with a class otherwise), linked to the File or to the object its
parent's key gives.  Objects and files that existed are untouched. -/
theorem open_shows (w : World) {gs : List GroupDesc} {es : List Shown} (h : Shows none gs es) :
    ∃ w' l, openFile w gs = (w', .ok w.files.length) ∧ Opens w w' w.files.length es l := by
  obtain ⟨b, cur, hb, hag⟩ := laid_groups h (laid_empty w.files.length w.datas.length)
  rw [List.nil_append] at hag
  refine ⟨{ files := w.files ++ [.opened b.items w.handles.length],
             datas := w.datas ++ b.made,
             handles := w.handles ++ [true],
             registry := w.registry ++ [w.files.length] }, b.items, ?_, ?_⟩
  · unfold openFile
    rw [hb]
  · refine ⟨?_, ?_, rfl, ?_, ?_⟩
    · unfold items
      simp
    · refine hag.all.imp ?_
      rintro e p ⟨h1, h2, k, o, h3, h4, h5⟩
      refine ⟨h1, h2, by omega, o, ?_, h5⟩
      rw [h3, get_append_right]
      exact h4
    · intro g hg
      exact List.getElem?_append_left hg
    · intro d hd
      exact List.getElem?_append_left hd

theorem subListing_total (g : String) (subs : List (String × String)) : ∃ es, SubListing g subs es := by
  induction subs with
  | nil => exact ⟨_, .nil⟩
  | cons p rest ih =>
    obtain ⟨n, l⟩ := p
    obtain ⟨es, h⟩ := ih
    by_cases h1 : l = "INTERLEVEL"
    · subst h1; exact ⟨_, .inter h⟩
    · by_cases h2 : l = "FIRSTLEVEL"
      · subst h2; exact ⟨_, .first h⟩
      · exact ⟨_, .other h1 h2 h⟩

theorem class_cases (g : GroupDesc) : (∃ c, IsClass g c) ∨ NoClass g ∨
    (g.datatype = "HYDRODYNAMIC" ∧ ∃ e, g.hydroInit = .error e) := by
  by_cases h1 : g.datatype = "HYDRODYNAMIC"
  · cases h : g.hydroInit with
    | ok u => exact Or.inl ⟨_, .hydro h1 h⟩
    | error e => exact Or.inr (Or.inr ⟨h1, e, rfl⟩)
  · by_cases h2 : g.datatype = "STRUCTURAL"
    · by_cases h3 : g.level = "TOPLEVEL"
      · exact Or.inl ⟨_, .top h2 h3⟩
      · by_cases h4 : g.level = "FIRSTLEVEL"
        · exact Or.inl ⟨_, .first h2 h4⟩
        · exact Or.inr (Or.inl ⟨h1, fun _ => ⟨h3, h4⟩⟩)
    · exact Or.inr (Or.inl ⟨h1, fun h => absurd h h2⟩)

theorem shows_cases (gs : List GroupDesc) : ∀ cur : Option (String × Cls),
    (∃ es, Shows cur gs es) ∨ (cur = none ∧ ∃ g rest, gs = g :: rest ∧ NoClass g) ∨
    ∃ pre g rest e es, gs = pre ++ g :: rest ∧ Shows cur pre es ∧ g.datatype = "HYDRODYNAMIC" ∧
      g.hydroInit = .error e := by
  induction gs with
  | nil => intro cur; exact Or.inl ⟨_, .nil⟩
  | cons g rest ih =>
    intro cur
    obtain ⟨ss, hss⟩ := subListing_total g.name g.subs
    rcases class_cases g with ⟨c, hc⟩ | hc | ⟨h1, e, h2⟩
    · rcases ih (some (g.name, c)) with ⟨es, h⟩ | ⟨h, _⟩ | ⟨pre, g', rest', e, es, h1, h2, h3⟩
      · exact Or.inl ⟨_, .own hc hss h⟩
      · cases h
      · exact Or.inr (Or.inr ⟨g :: pre, g', rest', e, _, by rw [h1]; rfl, .own hc hss h2, h3⟩)
    · cases cur with
      | none => exact Or.inr (Or.inl ⟨rfl, g, rest, rfl, hc⟩)
      | some nc =>
        obtain ⟨n, c⟩ := nc
        rcases ih (some (n, c)) with ⟨es, h⟩ | ⟨h, _⟩ | ⟨pre, g', rest', e, es, h1, h2, h3⟩
        · exact Or.inl ⟨_, .other hc hss h⟩
        · cases h
        · exact Or.inr (Or.inr ⟨g :: pre, g', rest', e, _, by rw [h1]; rfl, .other hc hss h2, h3⟩)
    · exact Or.inr (Or.inr ⟨[], g, rest, e, [], rfl, .nil, h1, h2⟩)

/-- **Every way opening can end**: the file shows its groups; or its first group has no class and
`UnboundLocalError` is raised; or the first hydrodynamic group that cannot be read raises its error.
If an error is raised nothing is registered and no object is made, only the handle stays open. -/
theorem open_any (w : World) (gs : List GroupDesc) :
    (∃ es w' l, Shows none gs es ∧ openFile w gs = (w', .ok w.files.length) ∧
      Opens w w' w.files.length es l) ∨
    (∃ g rest, gs = g :: rest ∧ NoClass g ∧
      openFile w gs = ({ w with handles := w.handles ++ [true] }, .error .unboundLocal)) ∨
    ∃ pre g rest e es, gs = pre ++ g :: rest ∧ Shows none pre es ∧ g.datatype = "HYDRODYNAMIC" ∧
      g.hydroInit = .error e ∧
      openFile w gs = ({ w with handles := w.handles ++ [true] }, .error e) := by
  rcases shows_cases gs none with ⟨es, h⟩ | ⟨_, g, rest, h, hc⟩ | ⟨pre, g, rest, e, es, h, hp, hg, he⟩
  · obtain ⟨w', l, h1, h2⟩ := open_shows w h
    exact Or.inl ⟨es, w', l, h, h1, h2⟩
  · refine Or.inr (Or.inl ⟨g, rest, h, hc, ?_⟩)
    rw [h]
    exact open_unbound w rest hc
  · refine Or.inr (Or.inr ⟨pre, g, rest, e, es, h, hp, hg, he, ?_⟩)
    obtain ⟨b, cur, hb, _⟩ := laid_groups hp (laid_empty w.files.length w.datas.length)
    have hne : ¬ ("HYDRODYNAMIC" : String) = "STRUCTURAL" := by decide
    have hc : classOf g = .error e := by
      unfold classOf
      rw [hg, if_neg hne, if_pos rfl, he]
    have : addGroups w.files.length w.datas.length (pre ++ g :: rest) {} = .error e := by
      rw [addGroups_append, hb]
      show addGroups _ _ (g :: rest) b = _
      unfold addGroups
      rw [hc]
      rfl
    unfold openFile
    rw [h, this]

theorem forall₂_mem {α β : Type} {P : α → β → Prop} {es : List α} {l : List β}
    (h : List.Forall₂ P es l) {e : α} (he : e ∈ es) : ∃ p ∈ l, P e p := by
  induction h with
  | nil => cases he
  | cons h _ ih =>
    rcases List.mem_cons.1 he with rfl | hm
    · exact ⟨_, List.mem_cons_self, h⟩
    · obtain ⟨p, hp, hP⟩ := ih hm
      exact ⟨p, List.mem_cons_of_mem _ hp, hP⟩

theorem forall₂_keys {l : List (String × Nat)} {es : List Shown} {P : Shown → String × Nat → Prop}
    (h : List.Forall₂ (fun e p => p.1 = e.key ∧ P e p) es l) : l.map (·.1) = es.map (·.key) := by
  induction h with
  | nil => rfl
  | cons h _ ih => rw [List.map_cons, List.map_cons, ih, h.1]

/-- **`f[key]`** on such a file, if the keys are distinct: the object, its class and the group it
reads; a key shown as another group gives the same object as the key of that group. -/
theorem shown_lookup {w w' : World} {f : Nat} {es : List Shown} {l : List (String × Nat)}
    (h : Opens w w' f es l) (hn : (es.map (·.key)).Nodup) :
    keys w' f = .ok (es.map (·.key)) ∧
    (∀ e ∈ es, ∃ d, getItem w' f e.key = .ok d ∧ getItem w' f e.path = .ok d ∧
      match e.parent with
      | none => w'.datas[d]? = some (.opened e.cls e.path (.file f))
      | some n => ∃ d', getItem w' f n = .ok d' ∧
          w'.datas[d]? = some (.opened e.cls e.path (.data d'))) ∧
    ∀ e ∈ es, ∀ e' ∈ es, (getItem w' f e.key = getItem w' f e'.key ↔ e.path = e'.path) := by
  have hkeys : l.map (·.1) = es.map (·.key) := forall₂_keys h.all
  have hk : (l.map (·.1)).Nodup := by rw [hkeys]; exact hn
  have hlook := lookups h.items hk
  have main : ∀ e ∈ es, ∃ d, getItem w' f e.key = .ok d ∧ getItem w' f e.path = .ok d ∧
      ∃ o, w'.datas[d]? = some (.opened e.cls e.path o) ∧ LinkOk f l e o := by
    intro e he
    obtain ⟨p, hp, h1, h2, _, o, h3, h4⟩ := forall₂_mem h.all he
    exact ⟨p.2, (hlook.2.2.1 e.key p.2 (by rw [← h1]; exact hp)).1, (hlook.2.2.1 e.path p.2 h2).1,
      o, h3, h4⟩
  refine ⟨by rw [hlook.1, hkeys], ?_, ?_⟩
  · intro e he
    obtain ⟨d, h1, h2, o, h3, h4⟩ := main e he
    refine ⟨d, h1, h2, ?_⟩
    unfold LinkOk at h4
    cases hpar : e.parent with
    | none =>
      rw [hpar] at h4
      rw [h3, h4]
    | some n =>
      rw [hpar] at h4
      obtain ⟨d', h5, h6⟩ := h4
      exact ⟨d', (hlook.2.2.1 n d' h5).1, by rw [h3, h6]⟩
  · intro e he e' he'
    obtain ⟨d, h1, h2, o, h3, _⟩ := main e he
    obtain ⟨d', h1', h2', o', h3', _⟩ := main e' he'
    constructor
    · intro heq
      rw [h1, h1'] at heq
      injection heq with heq
      subst heq
      rw [h3] at h3'
      injection h3' with h3'
      injection h3'
    · intro hp
      rw [h1, h1', ← h2, ← h2', hp]

/-! ## A case: a file with two superelements and a group of unknown type between them -/

namespace AnyDemo

/-- `T1` first level, `X` of unknown type with a superelement below it, `T2` hydrodynamic -/
def groups : List GroupDesc :=
  [{ name := "T1", datatype := "STRUCTURAL", level := "FIRSTLEVEL" },
   { name := "X", datatype := "OTHER", level := "", subs := [("T3", "FIRSTLEVEL"), ("doc", "")] },
   { name := "T2", datatype := "HYDRODYNAMIC", level := "" }]

def shown : List Shown :=
  [{ key := "T1", path := "T1", cls := .first },
   { key := "X", path := "T1", cls := .first },
   { key := "X/T3", path := "X/T3", cls := .first, parent := some "X" },
   { key := "T2", path := "T2", cls := .hydro }]

example : Shows none groups shown := by
  refine .own (es := []) (.first rfl rfl) .nil
    (.other (es := [{ name := "X/T3", cls := .first, parent := some "X" }]) ⟨?_, ?_⟩
      (.first (.other ?_ ?_ .nil)) (.own (es := []) (.hydro rfl rfl) .nil .nil)) <;> simp

example : (shown.map (·.key)).Nodup := by decide

/-- `X` gives the object of `T1` -/
example : (openFile {} groups).2.toOption = some 0 ∧
    (getItem (openFile {} groups).1 0 "X").toOption = some 0 ∧
    (getItem (openFile {} groups).1 0 "T1").toOption = some 0 ∧
    (getItem (openFile {} groups).1 0 "X/T3").toOption = some 1 ∧
    (getItem (openFile {} groups).1 0 "T2").toOption = some 2 ∧
    (openFile {} groups).1.datas[1]? = some (.opened .first "X/T3" (.data 0)) := by decide +kernel

def unreadable : GroupDesc :=
  { name := "T4", datatype := "HYDRODYNAMIC", level := "", hydroInit := .error .noSuchRecord }

/-- without `T1` in front nothing is opened; with hydrodynamic results that cannot be read neither -/
example : (openFile {} groups.tail).2 = .error .unboundLocal ∧
    (openFile {} (groups ++ [unreadable])).2 = .error .noSuchRecord := ⟨rfl, rfl⟩

end AnyDemo
end Verif.Data.Life
