import Verif.Seq.Count
/-!
# Cases of the theorems about sequential files

The values 1, -5, 1 in physical records of different sizes, and the file `GNODE`, `MISTEL` (a record
type without a reader, with two continuation records), `GNODE`, `IEND`.
-/

namespace Verif.Seq.Cases

/-- four bytes of 1, -5 and 0 -/
def one : Bytes := [0, 0, 128, 63]
@[inherit_doc one] def minusFive : Bytes := [0, 0, 160, 192]

/-- framed record of less than 128 bytes -/
def framed (c : Bytes) : Bytes := UInt8.ofNat c.length :: (c ++ [UInt8.ofNat c.length])

theorem one_float : Dec.std.f32 0 0 128 63 = .rat 1 := by decide +kernel
theorem minusFive_float : Dec.std.f32 0 0 160 192 = .rat (-5) := by decide +kernel
theorem zero_float : Dec.std.f32 0 0 0 0 = .rat 0 := by decide +kernel

section Values
open U

theorem frames2 : Frames [one ++ minusFive, one] (framed (one ++ minusFive) ++ (framed one ++ [])) :=
  .cons ⟨8, 8, rfl, rfl⟩ (.cons ⟨4, 4, rfl, rfl⟩ .nil)

theorem frames3 : Frames [List.replicate 8 32 ++ one, List.replicate 8 32 ++ minusFive,
      List.replicate 8 32 ++ one]
    (framed (List.replicate 8 32 ++ one) ++ (framed (List.replicate 8 32 ++ minusFive) ++
      (framed (List.replicate 8 32 ++ one) ++ []))) :=
  .cons ⟨12, 12, rfl, rfl⟩ (.cons ⟨12, 12, rfl, rfl⟩ (.cons ⟨12, 12, rfl, rfl⟩ .nil))

theorem chunks2 : List.Forall₂ (Chunk Dec.std 0) [one ++ minusFive, one]
    [[.rat 1, .rat (-5)], [.rat 1]] :=
  .cons ⟨_, rfl, by decide +kernel⟩ (.cons ⟨_, rfl, by decide +kernel⟩ .nil)

theorem chunks3 : List.Forall₂ (Chunk Dec.std 8) [List.replicate 8 32 ++ one,
      List.replicate 8 32 ++ minusFive, List.replicate 8 32 ++ one]
    [[.rat 1], [.rat (-5)], [.rat 1]] :=
  .cons ⟨one, rfl, by decide +kernel⟩ (.cons ⟨minusFive, rfl, by decide +kernel⟩
    (.cons ⟨one, rfl, by decide +kernel⟩ .nil))

/-- C02: two records, then bytes that are no record -/
example : ∃ s', readPayloads 2 ⟨framed (one ++ minusFive) ++ (framed one ++ []) ++ [7, 7], true,
    [.rat 3]⟩ = .ok ([one ++ minusFive, one], s') ∧ s'.rem = [7, 7] :=
  framing_roundtrip frames2 [7, 7] true [.rat 3]

/-- C02: a third read raises -/
example : readPayloads 3 ⟨framed (one ++ minusFive) ++ (framed one ++ []), true, [.rat 3]⟩ =
    .error .structError :=
  framing_end frames2 true [.rat 3]

/-- C02: eight bytes announced, four on the file -/
example : readStringrec ⟨8 :: one, true, [.rat 3]⟩ = .ok (one, ⟨[], false, [.rat 3]⟩) :=
  framing_truncated 8 (by decide) true [.rat 3]

/-- C02: a payload of 128 bytes is framed with 128 or 129 -/
example : Frame (List.replicate 128 5) (129 :: (List.replicate 128 5 ++ [1])) :=
  (framing_exists (List.replicate 128 5) (by simp) 1).2 (by simp)

/-- C01: requests of 1, 0 and 2 values -/
example : ∃ out s', readMany Dec.std 0 [1, 0, 2]
      ⟨framed (one ++ minusFive) ++ (framed one ++ []) ++ [7, 7], false, []⟩ = .ok (out, s') ∧
    out.flatten = [.rat 1, .rat (-5), .rat 1] ∧ out.map List.length = [1, 0, 2] :=
  U.read_floats_in_order frames2 chunks2 [7, 7] [] [1, 0, 2] (by decide)

/-- C01: the same values, one on each record, behind eight blanks -/
example : ∃ out s s', readMany Dec.std 0 [1, 0, 2]
      ⟨framed (one ++ minusFive) ++ (framed one ++ []) ++ [7, 7], false, []⟩ = .ok (out, s) ∧
    readMany Dec.std 8 [1, 0, 2]
      ⟨framed (List.replicate 8 32 ++ one) ++ (framed (List.replicate 8 32 ++ minusFive) ++
        (framed (List.replicate 8 32 ++ one) ++ [])) ++ [], false, [.rat 3]⟩ = .ok (out, s') :=
  chunking_irrelevant frames2 chunks2 frames3 chunks3 rfl [7, 7] [] [] [.rat 3] [1, 0, 2]
    (by decide)

/-- C01: four values asked for, three on the file -/
example : readFloats Dec.std 4 0 ⟨framed (one ++ minusFive) ++ (framed one ++ []), false, []⟩ =
    .error .structError :=
  read_floats_exhausted frames2 chunks2 [] 4 (by decide)

end Values

section Records

/-- a node -/
def node (i : Rat) : LRec := ⟨"GNODE", [.rat i], [], 0, [], []⟩
/-- a record without a reader: two continuation records -/
def mistel : LRec := ⟨"MISTEL", [.rat 1], [], 8, [.rat 1, .rat (-5)], []⟩
/-- the end of the file -/
def iend : LRec := ⟨"IEND", [.rat 0], [], 0, [], []⟩

/-- header record of a node -/
def nodeRec : Bytes := [71, 78, 79, 68, 69, 32, 32, 32] ++ one
/-- header record of the other one -/
def mistelRec : Bytes := [77, 73, 83, 84, 69, 76, 32, 32] ++ one
/-- record of the end -/
def iendRec : Bytes := [73, 69, 78, 68, 32, 32, 32, 32] ++ [0, 0, 0, 0]
/-- its continuation records -/
def mistelBody : List Bytes := [List.replicate 8 32 ++ one, List.replicate 8 32 ++ minusFive]

theorem nodeHead : U.Head Dec.std (node 1) nodeRec :=
  ⟨⟨by decide +kernel, by decide +kernel, by decide +kernel⟩, one, by decide +kernel, by
    simp only [one, U.tofloatrec, one_float]; rfl⟩
theorem mistelHead : U.Head Dec.std mistel mistelRec :=
  ⟨⟨by decide +kernel, by decide +kernel, by decide +kernel⟩, one, by decide +kernel, by
    simp only [one, U.tofloatrec, one_float]; rfl⟩
theorem iendHead : U.Head Dec.std iend iendRec :=
  ⟨⟨by decide +kernel, by decide +kernel, by decide +kernel⟩, [0, 0, 0, 0], by decide +kernel, by
    simp only [U.tofloatrec, zero_float]; rfl⟩

theorem noBody {r : LRec} (h1 : r.pre = []) (h2 : r.vals = []) (h3 : r.pad = []) :
    U.Body Dec.std r [] := by
  refine ⟨[], [], rfl, by rw [h1]; exact .nil, [], .nil, by rw [h2, h3]; rfl, by simp⟩

theorem mistelBodyOK : U.Body Dec.std mistel mistelBody :=
  ⟨[], mistelBody, rfl, .nil, [[.rat 1], [.rat (-5)]],
    .cons ⟨one, rfl, by decide +kernel⟩ (.cons ⟨minusFive, rfl, by decide +kernel⟩ .nil), rfl,
    by decide⟩

theorem notTD_GNODE : ¬ isTD "GNODE" := by rintro ⟨r, h⟩; simp at h
theorem notTD_MISTEL : ¬ isTD "MISTEL" := by rintro ⟨r, h⟩; simp at h
theorem notTD_IEND : ¬ isTD "IEND" := by rintro ⟨r, h⟩; simp at h

theorem mistelSkip (next : String) : U.Skippable Dec.std mistel mistelBody next :=
  .blankLed (.rat 1) [] rfl (by decide +kernel) notTD_MISTEL (by simp [mistelBody])
    (by
      intro c hc
      simp only [mistelBody, List.mem_cons, List.not_mem_nil, or_false] at hc
      rcases hc with rfl | rfl
      · exact ⟨_, rfl⟩
      · exact ⟨_, rfl⟩)

/-- the whole file, every record can be skipped -/
theorem encodes {z : Bytes} : U.Encodes Dec.std (fun _ => true) z [mistel, node 1, iend]
    ((framed mistelRec ++ (framed (List.replicate 8 32 ++ one) ++
        (framed (List.replicate 8 32 ++ minusFive) ++ []))) ++
      ((framed nodeRec ++ []) ++ ((framed iendRec ++ []) ++ z))) := by
  refine .cons mistelHead mistelBodyOK (.cons ⟨12, 12, rfl, rfl⟩ (.cons ⟨12, 12, rfl, rfl⟩
      (.cons ⟨12, 12, rfl, rfl⟩ .nil))) (fun _ n hn => mistelSkip _)
    (.cons nodeHead (noBody rfl rfl rfl) (.cons ⟨12, 12, rfl, rfl⟩ .nil)
      (fun _ n hn => .alone (.rat 1) [] rfl (by decide +kernel) notTD_GNODE rfl ?_)
    (.cons iendHead (noBody rfl rfl rfl) (.cons ⟨12, 12, rfl, rfl⟩ .nil)
      (fun _ n hn => by simp at hn) .nil))
  obtain rfl : iend = n := by simpa using hn
  decide +kernel

/-- C04: leftover values of an earlier record do not reach this one -/
example : observed ((Prog.op .header fun h => Prog.op (.floats 2 8) fun v => .ret (h, v)).run
      (U.reader Dec.std) ⟨framed mistelRec ++ ((framed (List.replicate 8 32 ++ one) ++
        (framed (List.replicate 8 32 ++ minusFive) ++ [])) ++ [7]), true, [.rat 3, .rat 4]⟩) =
    .ok (("MISTEL", [.rat 1]), [.rat 1, .rat (-5)]) :=
  U.header_then_floats (r := mistel) (cs := mistelBody) (vss := [[.rat 1], [.rat (-5)]])
    mistelHead ⟨12, 12, rfl, rfl⟩ (.cons ⟨12, 12, rfl, rfl⟩ (.cons ⟨12, 12, rfl, rfl⟩ .nil))
    (.cons ⟨one, rfl, by decide +kernel⟩ (.cons ⟨minusFive, rfl, by decide +kernel⟩ .nil))
    [7] true [.rat 3, .rat 4] 2 (by decide)

/-- C04: the same program, with and without leftover values -/
example : observed ((Prog.op .header fun h => Prog.op (.floats 2 8) fun v => .ret (h, v)).run
      (U.reader Dec.std) ⟨framed mistelRec ++ framed (List.replicate 8 32 ++ one), true,
        [.rat 3, .rat 4]⟩) =
    observed ((Prog.op .header fun h => Prog.op (.floats 2 8) fun v => .ret (h, v)).run
      (U.reader Dec.std) ⟨framed mistelRec ++ framed (List.replicate 8 32 ++ one), false, []⟩) :=
  U.header_discards_leftover Dec.std _ true [.rat 3, .rat 4] _

/-- C05: behind the skipped record stands the node -/
example : ∃ s, (Prog.op .header fun h => Prog.op (.skip h.1 h.2) fun h' =>
      header.bind fun a => .ret (h, h', a)).run (U.reader Dec.std)
      (U.openFile (75 :: ((framed mistelRec ++ (framed (List.replicate 8 32 ++ one) ++
        (framed (List.replicate 8 32 ++ minusFive) ++ []))) ++
      ((framed nodeRec ++ []) ++ ((framed iendRec ++ []) ++ []))))) =
    .ok ((("MISTEL", [.rat 1]), ("GNODE", [.rat 1]), ("IEND", [.rat 0])), s) :=
  U.skip_lands_on_next encodes rfl 75 header
    (t := { cur := iend, ops := 0, rest := [] }) rfl

/-- C05: exact position -/
example : ∃ s1 s2, U.readHeader Dec.std ⟨(framed mistelRec ++
        (framed (List.replicate 8 32 ++ one) ++ (framed (List.replicate 8 32 ++ minusFive) ++ []))) ++
      (framed nodeRec ++ [7, 8]), true, [.rat 3]⟩ = .ok (("MISTEL", [.rat 1]), s1) ∧
    skipRestofrecord (U.fileOps Dec.std) "MISTEL" [.rat 1] s1 = .ok (("GNODE", [.rat 1]), s2) ∧
    s2.rem = [7, 8] ∧ s2.hasrest = false :=
  U.skip_position (r := mistel) (n := node 1) mistelHead mistelBodyOK
    (.cons ⟨12, 12, rfl, rfl⟩ (.cons ⟨12, 12, rfl, rfl⟩ (.cons ⟨12, 12, rfl, rfl⟩ .nil)))
    (mistelSkip _) nodeHead ⟨12, 12, rfl, rfl⟩ true [.rat 3]

theorem iendLast : LastOK iend :=
  ⟨rfl, rfl, notTD_IEND, .rat 0, [], 0, rfl, by decide +kernel, by decide +kernel⟩

/-- C49: counting raises at the end of an unformatted file -/
example : getRecordcount (U.fileOps Dec.std) (U.openFile (75 ::
      ((framed mistelRec ++ (framed (List.replicate 8 32 ++ one) ++
        (framed (List.replicate 8 32 ++ minusFive) ++ []))) ++
      ((framed nodeRec ++ []) ++ ((framed iendRec ++ []) ++ []))))) = .error .structError :=
  U.recordcount_raises 75 (f := [mistel, node 1]) encodes iendLast

/-- C49: and counts if zeros follow -/
example : ∃ recs s, getRecordcount (U.fileOps Dec.std) (U.openFile (75 ::
      ((framed mistelRec ++ (framed (List.replicate 8 32 ++ one) ++
        (framed (List.replicate 8 32 ++ minusFive) ++ []))) ++
      ((framed nodeRec ++ []) ++ ((framed iendRec ++ []) ++ (0 :: [0])))))) = .ok (recs, s) ∧
    Counts recs (["MISTEL", "GNODE", "IEND"] ++ [""]) :=
  U.recordcount_padded 75 (f := [mistel, node 1]) (m := 0) encodes iendLast
    (by intro x hx; obtain rfl : PyF.rat 0 = x := by simpa [iend] using hx
        decide +kernel) (by decide)

end Records

section Lines
open T

/-- five values on two lines -/
def lines : List Str :=
  ["                       1               2               3               4".toList,
   "                       5".toList]
/-- header line of the record without a reader -/
def mistelLine : Str := "MISTEL                 1".toList
@[inherit_doc mistelLine] def nodeLine : Str := "GNODE                  1".toList
@[inherit_doc mistelLine] def iendLine : Str := "IEND                   0".toList

/-- a record without a reader: two continuation lines -/
def mistel5 : LRec := ⟨"MISTEL", [.rat 1], [], 0, [.rat 1, .rat 2, .rat 3, .rat 4, .rat 5], []⟩

theorem chunksT : List.Forall₂ (Chunk Dec.std) lines
    [[.rat 1, .rat 2, .rat 3, .rat 4], [.rat 5]] :=
  .cons ⟨"               1               2               3               4".toList,
      by decide +kernel, by decide +kernel, by decide +kernel⟩
    (.cons ⟨"               5".toList, by decide +kernel, by decide +kernel, by decide +kernel⟩ .nil)

theorem full : ∀ vs ∈ ([[.rat 1, .rat 2, .rat 3, .rat 4], [.rat 5]] : List (List PyF)).dropLast,
    vs.length = 4 := by
  intro vs h
  obtain rfl : vs = [.rat 1, .rat 2, .rat 3, .rat 4] := by simpa using h
  rfl

theorem most : ∀ vs ∈ ([[.rat 1, .rat 2, .rat 3, .rat 4], [.rat 5]] : List (List PyF)),
    vs.length ≤ 4 := by
  intro vs h
  simp only [List.mem_cons, List.not_mem_nil, or_false] at h
  rcases h with rfl | rfl <;> decide

theorem mistelHeadT : T.Head Dec.std mistel5 mistelLine :=
  ⟨⟨by decide +kernel, by decide +kernel, by decide +kernel⟩, "               1".toList,
    by decide +kernel, by decide +kernel, by decide +kernel⟩
theorem nodeHeadT : T.Head Dec.std (node 1) nodeLine :=
  ⟨⟨by decide +kernel, by decide +kernel, by decide +kernel⟩, "               1".toList,
    by decide +kernel, by decide +kernel, by decide +kernel⟩
theorem iendHeadT : T.Head Dec.std iend iendLine :=
  ⟨⟨by decide +kernel, by decide +kernel, by decide +kernel⟩, "               0".toList,
    by decide +kernel, by decide +kernel, by decide +kernel⟩

theorem mistelBodyT : T.Body Dec.std mistel5 lines :=
  ⟨[], lines, rfl, .nil, _, chunksT, rfl, full, most, by decide⟩

theorem noBodyT {r : LRec} (h1 : r.pre = []) (h2 : r.vals = []) (h3 : r.pad = []) :
    T.Body Dec.std r [] := by
  refine ⟨[], [], rfl, by rw [h1]; exact .nil, [], .nil, by rw [h2, h3]; rfl, by simp, by simp,
    by simp⟩

theorem mistelSkipT (next : String) : T.Skippable Dec.std mistel5 lines next :=
  .blankLed (.rat 1) [] rfl (by decide +kernel) notTD_MISTEL (by simp [lines])
    (by
      intro c hc
      simp only [lines, List.mem_cons, List.not_mem_nil, or_false] at hc
      rcases hc with rfl | rfl
      · exact ⟨_, (by decide +kernel : _ = List.replicate 8 ' ' ++
          "               1               2               3               4".toList)⟩
      · exact ⟨_, (by decide +kernel : _ = List.replicate 8 ' ' ++ "               5".toList)⟩)

/-- the whole file, every record can be skipped -/
theorem encodesT : T.Encodes Dec.std (fun _ => true) [] [mistel5, node 1, iend]
    (unlines (mistelLine :: lines) ++ (unlines [nodeLine] ++ (unlines [iendLine] ++ []))) := by
  refine .cons mistelHeadT mistelBodyT (fun _ n hn => mistelSkipT _)
    (.cons nodeHeadT (noBodyT rfl rfl rfl)
      (fun _ n hn => .alone (.rat 1) [] rfl (by decide +kernel) notTD_GNODE rfl ?_)
    (.cons iendHeadT (noBodyT rfl rfl rfl) (fun _ n hn => by simp at hn) .nil))
  obtain rfl : iend = n := by simpa using hn
  decide +kernel

/-- C03: requests of 3 and 2 values -/
example : ∃ out s', readMany Dec.std 0 [3, 2] ⟨unlines lines ++ "GNODE".toList, false, []⟩ =
      .ok (out, s') ∧ out.flatten = [.rat 1, .rat 2, .rat 3, .rat 4, .rat 5] ∧
    out.map List.length = [3, 2] :=
  T.read_floats_in_order chunksT full most "GNODE".toList [] [3, 2] (by decide)

/-- C03: one value left over, then a request for six -/
example : readFloats Dec.std 6 0 ⟨unlines lines ++ "GNODE".toList, true, [.rat 9]⟩ =
    .ok ([.rat 9, .rat 1, .rat 2, .rat 3, .rat 4, .rat 5], ⟨"GNODE".toList, false, []⟩) :=
  read_floats_lines chunksT [.rat 9] 6 (by decide) (by decide) "GNODE".toList true [.rat 9] rfl

/-- C04: leftover values of an earlier record do not reach this one -/
example : observed ((Prog.op .header fun h => Prog.op (.floats 5 0) fun v => .ret (h, v)).run
      (T.reader Dec.std) ⟨mistelLine ++ '\n' :: (unlines lines ++ []), true, [.rat 8, .rat 9]⟩) =
    .ok (("MISTEL", [.rat 1]), [.rat 1, .rat 2, .rat 3, .rat 4, .rat 5]) :=
  T.header_then_floats (r := mistel5) mistelHeadT chunksT full most [] true [.rat 8, .rat 9] 5
    (by decide)

/-- C05: behind the skipped record stands the node -/
example : ∃ s, (Prog.op .header fun h => Prog.op (.skip h.1 h.2) fun h' =>
      header.bind fun a => .ret (h, h', a)).run (T.reader Dec.std)
      (T.openFile (unlines (mistelLine :: lines) ++
        (unlines [nodeLine] ++ (unlines [iendLine] ++ [])))) =
    .ok ((("MISTEL", [.rat 1]), ("GNODE", [.rat 1]), ("IEND", [.rat 0])), s) :=
  T.skip_lands_on_next encodesT rfl header
    (t := { cur := iend, ops := 0, rest := [] }) rfl

/-- C05: exact position -/
example : ∃ s1 s2, T.readHeader Dec.std ⟨unlines (mistelLine :: lines) ++
        (nodeLine ++ '\n' :: "x".toList), true, [.rat 3]⟩ = .ok (("MISTEL", [.rat 1]), s1) ∧
    skipRestofrecord (T.fileOps Dec.std) "MISTEL" [.rat 1] s1 = .ok (("GNODE", [.rat 1]), s2) ∧
    s2.rem = "x".toList ∧ s2.hasrest = false :=
  T.skip_position (r := mistel5) (n := node 1) mistelHeadT mistelBodyT (mistelSkipT _) nodeHeadT
    true [.rat 3]

/-- C49: the records are counted, and the end of the file as a record without a name -/
example : ∃ recs s, getRecordcount (T.fileOps Dec.std) (T.openFile
      (unlines (mistelLine :: lines) ++ (unlines [nodeLine] ++ (unlines [iendLine] ++ [])))) =
      .ok (recs, s) ∧ Counts recs (["MISTEL", "GNODE", "IEND"] ++ [""]) :=
  T.recordcount_partial (f := [mistel5, node 1]) encodesT iendLast

end Lines

end Verif.Seq.Cases
