import Verif.Seq.Newline
import Verif.Parse.Convert
import Verif.Parse.Demo
/-!
# Conversion of a formatted file without newline at its end (C60)
-/

namespace Verif.Parse
open Verif Verif.Seq

/-- **C60**: Converting a formatted file without newline at its end gives the result, or raises the
exception, of the file with a newline in place of its last character. -/
theorem convert_newline_missing (D : Dec) (B : Nat) (only : Option (List String)) (st : St)
    {x l : Str} {c : Char} (hx : x = [] ∨ x.getLast? = some '\n') (hl : '\n' ∉ l) (hc : c ≠ '\n')
    (h8 : 8 ≤ l.length) :
    parseSource D B only st (.formatted (x ++ (l ++ [c]))) =
      parseSource D B only st (.formatted (x ++ (l ++ ['\n']))) := by
  change parseFormatted D B only st _ = parseFormatted D B only st _
  unfold parseFormatted
  rw [show (x ++ (l ++ [c])).length = (x ++ (l ++ ['\n'])).length by simp]
  exact T.newline_missing D _ hx hl hc h8

/-- the demo file without its last newline and with one more digit -/
example : parseSource Dec.std 0 none { g := { filetypeid := "T" } }
      (.formatted ((Demo.text Demo.file).dropLast ++ ['5'])) =
    parseSource Dec.std 0 none { g := { filetypeid := "T" } } (.formatted (Demo.text Demo.file)) := by
  have h := convert_newline_missing Dec.std 0 none { g := { filetypeid := "T" } } (c := '5')
    (x := Demo.text Demo.file.dropLast)
    (l := (Demo.headT ⟨"IEND", [.rat 0, .rat 0, .rat 0, .rat 0], [], 0, [], []⟩))
    (.inr (by decide +kernel)) (by decide +kernel) (by decide) (by decide +kernel)
  rw [← List.append_assoc] at h
  rw [show (Demo.text Demo.file).dropLast = Demo.text Demo.file.dropLast ++
    (Demo.headT ⟨"IEND", [.rat 0, .rat 0, .rat 0, .rat 0], [], 0, [], []⟩) from by decide +kernel, h]
  congr 2
  decide +kernel

end Verif.Parse
