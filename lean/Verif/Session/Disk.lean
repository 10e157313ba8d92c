import Verif.Session.Whole
/-!
# Reading back what was converted to HDF5 files on disk (C82)

From the bytes of SESAM files, over `sif2hdf5`, `open_hdf5`, any other calls, to the objects.
-/

namespace Verif.Session
open Verif Verif.Seq Verif.Parse Verif.Conv Verif.Data Verif.Data.Life Verif.Data.Load

section
variable {K V : Type} [Field K] [LinearOrder K] {iter : H5 → List (String × List String)} {pi : K}
  {num : PyF → K} {cplx : PyF → PyF → V} {D : Dec} {B : Nat}
  {filename dir fname fp : Str} {l : Char} {no ext : Str} {b : Bytes} {pre : Str}
  {f : List LRec} {names : List String} {t : Int} {n lev dt : String} {h0 h1 h2 : H5} {ms : List Str}
  {s : State} {stem e3 : Str}

/-- a file in another session state with the same current directory and the same files -/
theorem SesamFile.moved {w w' : Conv.World}
    (F : SesamFile D w filename dir fname fp l no ext b pre f names t n lev dt h0 h1 h2 ms)
    (hd : w'.disk = w.disk) (hc : w'.cwd = w.cwd) :
    SesamFile D w' filename dir fname fp l no ext b pre f names t n lev dt h0 h1 h2 ms := by
  have hf : ∀ p, w'.fullPath p = w.fullPath p := by
    intro p
    unfold Conv.World.fullPath
    rw [hc]
  refine ⟨?_, F.parts, F.notSin, ?_, F.group, ?_⟩
  · rw [hf]; exact F.path
  · rw [hf, hd]; exact F.bytes
  · rw [hd]; exact F.records

/-- `sif2hdf5` into an HDF5 file that is not open -/
theorem session_converts {o : Options} {given upre : Str}
    (F : SesamFile D s.conv filename dir fname fp l no ext b pre f names t n lev dt h0 h1 h2 ms)
    (honly : o.only = none) (hpre : pre = if o.usefileprefix then upre ++ fp else upre)
    (happ : o.append = true → ∃ n, n ≠ [] ∧ o.hdf5name = some n)
    (hgiven : GivenName o fname given)
    (hleft : ∀ h, s.conv.out (s.conv.fullPath given) ≠ some (.left h))
    (hclosed : ∀ p ∈ [given, s.conv.fullPath given], isOpen s s.life (.disk p) = false)
    (hbefore : Before s.conv o.append given h0) :
    ∃ s1, convert D B o s (.name filename) (.one upre) =
        (s1, .ok (.path (s.conv.fullPath given))) ∧
      s1.conv.out (s.conv.fullPath given) = some (.h5 h2) ∧
      s1.life = s.life ∧ s1.store = s.store ∧ s1.conv.disk = s.conv.disk ∧ s1.conv.cwd = s.conv.cwd ∧
      s1.conv.reading = [] := by
  have hfull : ∀ p, ({ s.conv with reading := openPaths s } : Conv.World).fullPath p =
    s.conv.fullPath p := fun p => rfl
  obtain ⟨w', f, e1, e2, e2', e3, e4, e5, e6, e8, -, e7⟩ := hierarchy_converted (B := B)
    (w := { s.conv with reading := openPaths s })
    (o := { o with inMemory := false }) (pre := upre) (given := given) (h0 := h0) F.path F.parts
    F.notSin F.bytes hpre rfl happ hgiven
    (before_session hbefore (hclosed _ (by simp)) (hclosed _ (by simp)))
    (by rw [honly]; exact F.conversion)
  have hf : f = .h5 h2 := e2'.closed hleft
  subst hf
  rw [hfull] at e1 e2
  refine ⟨{ s with conv := { w' with reading := [] } }, ?_, e2, rfl, rfl, e4, e5, rfl⟩
  unfold convert
  rw [e1]

/-- **C82** `sif2hdf5` into an HDF5 file that is not open, followed by `open_hdf5`: the object of a
first level superelement has what the file describes, after any calls that do not close the File. -/
theorem hdf5_object (hs : Reachable iter pi num cplx D B s) {o : Options} {hdf5 given upre : Str}
    (F : SesamFile D s.conv filename dir fname fp l no ext b pre f names t n "FIRSTLEVEL"
      "STRUCTURAL" h0 h1 h2 ms)
    (honly : o.only = none) (hpre : pre = if o.usefileprefix then upre ++ fp else upre)
    (happ : o.append = true → ∃ n, n ≠ [] ∧ o.hdf5name = some n)
    (hgiven : GivenName o fname given) (hpath : s.conv.fullPath hdf5 = s.conv.fullPath given)
    (hleft : ∀ h, s.conv.out (s.conv.fullPath given) ≠ some (.left h))
    (hclosed : ∀ p ∈ [given, s.conv.fullPath given], isOpen s s.life (.disk p) = false)
    (hbefore : Before s.conv o.append given h0) (h0p : Proper pi num cplx h0)
    (hi : Enumerates h2 (iter h2)) :
    ∃ s1 s2 d x, convert D B o s (.name filename) (.one upre) =
        (s1, .ok (.path (s.conv.fullPath given))) ∧
      openHdf5 iter pi num cplx s1 hdf5 = (s2, .ok s.life.files.length) ∧
      getItem s2.life s.life.files.length n = .ok d ∧
      x.isOpen = true ∧ x.toplevel = none ∧ x.filetype = String.ofList [l] ∧ x.seltyp = t ∧
      Once names x.recNames ∧ Reads num f x ∧
      ∀ s3, Spares iter pi num cplx D B s.life.files.length s2 s3 → struc num s3 d = .ok x := by
  obtain ⟨s1, s2, d, q1, -, -, -, -, -, -, -, -, q2, -, q3, q4, -⟩ := convert_then_open hs F honly hpre
    happ hgiven hpath hleft hclosed hbefore h0p F.class_first hi
  obtain ⟨sk, outs, ix, henc, j, c, hw⟩ := F.records
  obtain ⟨x, l1, l2, l0, l3, l4, l5, l6⟩ := loads_struc j c rfl num
  simp only [Place.path] at l1
  rw [← F.group, ← loadStruc_congr F.same.1] at l1
  refine ⟨s1, s2, d, x, q1, q2, q3, l2, l0, l3, l4, l5, l6, ?_⟩
  intro s3 hsp
  have r1 : Reachable iter pi num cplx D B s1 := by
    have := Reachable.step hs (.convert o s (.name filename) (.one upre))
    rw [q1] at this
    exact this
  have r2 : Reachable iter pi num cplx D B s2 := by
    have := Reachable.step r1 (.openHdf5 s1 hdf5)
    rw [q2] at this
    exact this
  unfold struc
  rw [(object_stays r2 q4 hsp).group]
  exact l1

/-- **C82** Both ways to a file: the object that `open_sif` returns and the object under the name of
the group after `sif2hdf5` (with the prefix of the file, into an HDF5 file that is not open) and
`open_hdf5` give the same, whatever their class, whatever else is called on either way. -/
theorem both_ways {c : Cls} (hs : Reachable iter pi num cplx D B s) {o : Options} {hdf5 given : Str}
    (F : SesamFile D s.conv filename dir fname fp l no ext b fp f names t n lev dt {} h1 h2 ms)
    (hstem : fname = stem ++ e3) (he3 : e3.length = 3)
    (hfree : stem ++ "h5".toList ∉ s.conv.memory ++ s.conv.leaked) (hi : Enumerates h2 (iter h2))
    (hno : no = (toString t).toList) (hc : ClassAt pi num cplx h1 n c)
    (honly : o.only = none) (hpre : o.usefileprefix = true)
    (happ : o.append = true → ∃ n, n ≠ [] ∧ o.hdf5name = some n)
    (hgiven : GivenName o fname given) (hpath : s.conv.fullPath hdf5 = s.conv.fullPath given)
    (hleft : ∀ h, s.conv.out (s.conv.fullPath given) ≠ some (.left h))
    (hclosed : ∀ p ∈ [given, s.conv.fullPath given], isOpen s s.life (.disk p) = false)
    (hbefore : Before s.conv o.append given {}) :
    ∃ a da s1 b db, openSif iter pi num cplx D B s filename = (a, .ok da) ∧
      convert D B o s (.name filename) (.one []) = (s1, .ok (.path (s.conv.fullPath given))) ∧
      openHdf5 iter pi num cplx s1 hdf5 = (b, .ok s.life.files.length) ∧
      getItem b.life s.life.files.length n = .ok db ∧
      ∀ a' b', Spares iter pi num cplx D B s.life.files.length a a' →
        Spares iter pi num cplx D B s.life.files.length b b' →
        struc num a' da = struc num b' db ∧ top num a' da = top num b' db ∧
        hydro pi num cplx a' da = hydro pi num cplx b' db := by
  obtain ⟨a, da, p1, -, p2⟩ := open_sif_object hs F hstem he3 hfree hi hno hc
  obtain ⟨s1, b, db, q1, -, -, -, -, -, -, -, -, q2, -, q3, q4, -⟩ := convert_then_open hs F honly
    (upre := []) (by rw [hpre]; rfl) happ hgiven hpath hleft hclosed hbefore proper_empty hc hi
  refine ⟨a, da, s1, b, db, p1, q1, q2, q3, ?_⟩
  intro a' b' ha hb
  have ra : Reachable iter pi num cplx D B a := by
    have := Reachable.step hs (.openSif s filename)
    rw [p1] at this
    exact this
  have r1 : Reachable iter pi num cplx D B s1 := by
    have := Reachable.step hs (.convert o s (.name filename) (.one []))
    rw [q1] at this
    exact this
  have rb : Reachable iter pi num cplx D B b := by
    have := Reachable.step r1 (.openHdf5 s1 hdf5)
    rw [q2] at this
    exact this
  have ga := (object_stays ra p2 ha).group
  have gb := (object_stays rb q4 hb).group
  refine ⟨?_, ?_, ?_⟩
  · unfold struc; rw [ga, gb]
  · unfold top; rw [ga, gb]
  · unfold hydro; rw [ga, gb]

/-- **C82** Two files in one HDF5 file: `sif2hdf5` of the first, `sif2hdf5` of the second with
`append=True`, and `open_hdf5`: the objects of both first level superelements have what their own files
describe, after any calls that do not close the File. -/
theorem two_in_one (hs : Reachable iter pi num cplx D B s) {o o' : Options} {given upre upre' : Str}
    {filename' dir' fname' fp' : Str} {l' : Char} {no' ext' : Str} {b' : Bytes} {pre' : Str}
    {f' : List LRec} {names' : List String} {t' : Int} {n' : String} {h3 h4 : H5} {ms' : List Str}
    (F : SesamFile D s.conv filename dir fname fp l no ext b pre f names t n "FIRSTLEVEL"
      "STRUCTURAL" {} h1 h2 ms)
    (F' : SesamFile D s.conv filename' dir' fname' fp' l' no' ext' b' pre' f' names' t' n'
      "FIRSTLEVEL" "STRUCTURAL" h2 h3 h4 ms')
    (hdiff : n ≠ n')
    (honly : o.only = none) (hpre : pre = if o.usefileprefix then upre ++ fp else upre)
    (honly' : o'.only = none) (hpre' : pre' = if o'.usefileprefix then upre' ++ fp' else upre')
    (hne : given ≠ []) (hgiven : o.hdf5name = some given) (hgiven' : o'.hdf5name = some given)
    (happ : o.append = false) (happ' : o'.append = true)
    (hfree : given ∉ s.conv.memory ++ s.conv.leaked)
    (hleft : ∀ h, s.conv.out (s.conv.fullPath given) ≠ some (.left h))
    (hclosed : ∀ p ∈ [given, s.conv.fullPath given], isOpen s s.life (.disk p) = false)
    (hi : Enumerates h4 (iter h4)) :
    ∃ s1 s2 s3 d d' x x', convert D B o s (.name filename) (.one upre) =
        (s1, .ok (.path (s.conv.fullPath given))) ∧
      convert D B o' s1 (.name filename') (.one upre') =
        (s2, .ok (.path (s.conv.fullPath given))) ∧
      openHdf5 iter pi num cplx s2 given = (s3, .ok s.life.files.length) ∧
      getItem s3.life s.life.files.length n = .ok d ∧
      getItem s3.life s.life.files.length n' = .ok d' ∧
      Reads num f x ∧ Reads num f' x' ∧ x.seltyp = t ∧ x'.seltyp = t' ∧
      ∀ s4, Spares iter pi num cplx D B s.life.files.length s3 s4 →
        struc num s4 d = .ok x ∧ struc num s4 d' = .ok x' := by
  have hread : s.conv.reading = [] := (inv_of hs).reading
  have hb : Before s.conv o.append given {} := by
    refine ⟨by rw [hread]; simp, fun _ => ?_, ?_⟩
    · simpa using hfree
    · split
      · rfl
      · rw [happ, hread]
        simp
      · rename_i h he
        exact absurd he (hleft h)
  obtain ⟨s1, q1, q2, q3, q4, q5, q6, q7⟩ := session_converts (B := B) F honly hpre
    (fun h => by rw [happ] at h; cases h) (.inl ⟨hne, hgiven⟩) hleft hclosed hb
  have r1 : Reachable iter pi num cplx D B s1 := by
    have := Reachable.step hs (.convert o s (.name filename) (.one upre))
    rw [q1] at this
    exact this
  have hfull : ∀ p, s1.conv.fullPath p = s.conv.fullPath p := by
    intro p
    unfold Conv.World.fullPath
    rw [q6]
  have hopen : ∀ og, isOpen s1 s1.life og = isOpen s s.life og := by
    intro og
    unfold isOpen
    rw [q3, q4]
  have F1 := F'.moved q5 q6
  obtain ⟨p1, p2⟩ := F.proper (pi := pi) (cplx := cplx) (num := num) F.class_first proper_empty
  obtain ⟨s2, s3, d', u1, -, -, -, -, -, -, -, -, u2, u3, u4, u5, -⟩ := convert_then_open (hdf5 := given)
    (given := given) r1 F1 honly' hpre' (fun _ => ⟨given, hne, hgiven'⟩) (.inl ⟨hne, hgiven'⟩) rfl
    (by rw [hfull, q2]; intro h he; cases he)
    (by rw [hfull]; intro p hp; rw [hopen]; exact hclosed p hp)
    (⟨by rw [q7]; simp, fun h => (by rw [happ'] at h; cases h), by
      rw [hfull, q2, q7, happ']
      simp⟩) p1 F1.class_first hi
  rw [hfull] at u1
  rw [q3] at u2 u3 u4 u5
  have r2 : Reachable iter pi num cplx D B s2 := by
    have := Reachable.step r1 (.convert o' s1 (.name filename') (.one upre'))
    rw [u1] at this
    exact this
  have r3 : Reachable iter pi num cplx D B s3 := by
    have := Reachable.step r2 (.openHdf5 s2 given)
    rw [u2] at this
    exact this
  have same := F'.same.2.1 n hdiff
  obtain ⟨d, v1, v2⟩ := u3.top n .first ((classAt_congr same).mpr p2)
  obtain ⟨sk, outs, ix, henc, j, c, hw⟩ := F.records
  obtain ⟨x, l1, l2, l0, l3, l4, l5, l6⟩ := loads_struc j c rfl num
  simp only [Place.path] at l1
  rw [← F.group, ← loadStruc_congr F.same.1, ← loadStruc_congr same] at l1
  obtain ⟨sk', outs', ix', henc', j', c', hw'⟩ := F'.records
  obtain ⟨x', k1, k2, k0, k3, k4, k5, k6⟩ := loads_struc j' c' rfl num
  simp only [Place.path] at k1
  rw [← F'.group, ← loadStruc_congr F'.same.1] at k1
  refine ⟨s1, s2, s3, d, d', x, x', q1, u1, u2, v1, u4, l6, k6, l4, k4, ?_⟩
  intro s4 hsp
  constructor
  · unfold struc
    rw [(object_stays r3 v2 hsp).group]
    exact l1
  · unfold struc
    rw [(object_stays r3 u5 hsp).group]
    exact k1

end
end Verif.Session
