import Verif.Data.LoadHydroProps
import Verif.Data.LoadDemo
import Verif.Data.HydroDemo
/-!
# A small hydrodynamic results file

Two directions, two frequencies, two bodies whose motions are interleaved, one section, two points,
two panels on two symmetry parts, three matrices.
-/

namespace Verif.Data.Load.HydroDemo
open Verif Verif.Data Verif.Parse Verif.Seq Verif.Parse.Demo Verif.Data.Load

def hydFile : List LRec := [
  ⟨"IDENT", [.rat 1, .rat 5, .rat 3, .rat 0], [], 0, [], []⟩,
  ⟨"WGLOBDEF", [.rat 5, .rat 10, .rat 1000, .rat 1], [], 0, [.rat 100], []⟩,
  ⟨"WDRESREF", [.rat 10, .rat 1, .rat 1, .rat 2], [], 0, [.rat 1, .rat 1, .rat 3, .rat 2, .rat 1, .rat 2], []⟩,
  ⟨"WDRESREF", [.rat 10, .rat 2, .rat 1, .rat 2], [], 0, [.rat 1, .rat 2, .rat 3, .rat 2, .rat 2, .rat (1/2)], []⟩,
  ⟨"WDRESREF", [.rat 10, .rat 3, .rat 1, .rat 2], [], 0, [.rat 1, .rat 3, .rat 1, .rat 2, .rat 3, .rat 2], []⟩,
  ⟨"WDRESREF", [.rat 10, .rat 4, .rat 1, .rat 2], [], 0, [.rat 1, .rat 4, .rat 1, .rat 2, .rat 4, .rat (1/2)], []⟩,
  ⟨"WBODCON", [.rat 4, .rat 5, .rat 1, .rat 0], [], 0, [], []⟩,
  ⟨"WBODCON", [.rat 4, .rat 8, .rat 2, .rat 0], [], 0, [], []⟩,
  ⟨"WBODY", [.rat 32, .rat 5, .rat 20, .rat 21], [], 0, [.rat 22, .rat 30, .rat 31, .rat 32, .rat 33, .rat 34, .rat 35, .rat 36, .rat 38, .rat 39, .rat 40, .rat 41, .rat 1, .rat 0, .rat 0, .rat 0, .rat 0, .rat 1, .rat 0, .rat 0, .rat 0, .rat 0, .rat 1, .rat 0, .rat 7, .rat 0, .rat 0, .rat 1], []⟩,
  ⟨"WSECTION", [.rat 14, .rat 1, .rat 1, .rat 2], [], 0, [.rat 11, .rat 0, .rat 0, .rat 0, .rat 1, .rat 0, .rat 0, .rat 0, .rat 1, .rat 0], []⟩,
  ⟨"WFKPOINT", [.rat 5, .rat 1, .rat 10, .rat 0], [], 0, [.rat (-1)], []⟩,
  ⟨"WFKPOINT", [.rat 5, .rat 2, .rat 20, .rat 0], [], 0, [.rat (-1)], []⟩,
  ⟨"W1MOTION", [.rat 16, .rat 5, .rat 1, .rat 1], [], 0, [.rat 10, .rat 0, .rat 10, .rat 1, .rat 10, .rat 2, .rat 10, .rat 3, .rat 10, .rat 4, .rat 10, .rat 5], []⟩,
  ⟨"W1MOTION", [.rat 16, .rat 8, .rat 1, .rat 1], [], 0, [.rat 60, .rat 0, .rat 60, .rat 1, .rat 60, .rat 2, .rat 60, .rat 3, .rat 60, .rat 4, .rat 60, .rat 5], []⟩,
  ⟨"W1MOTION", [.rat 16, .rat 5, .rat 2, .rat 1], [], 0, [.rat 20, .rat 0, .rat 20, .rat 1, .rat 20, .rat 2, .rat 20, .rat 3, .rat 20, .rat 4, .rat 20, .rat 5], []⟩,
  ⟨"W1MOTION", [.rat 16, .rat 8, .rat 2, .rat 1], [], 0, [.rat 70, .rat 0, .rat 70, .rat 1, .rat 70, .rat 2, .rat 70, .rat 3, .rat 70, .rat 4, .rat 70, .rat 5], []⟩,
  ⟨"W1MOTION", [.rat 16, .rat 5, .rat 3, .rat 1], [], 0, [.rat 30, .rat 0, .rat 30, .rat 1, .rat 30, .rat 2, .rat 30, .rat 3, .rat 30, .rat 4, .rat 30, .rat 5], []⟩,
  ⟨"W1MOTION", [.rat 16, .rat 8, .rat 3, .rat 1], [], 0, [.rat 80, .rat 0, .rat 80, .rat 1, .rat 80, .rat 2, .rat 80, .rat 3, .rat 80, .rat 4, .rat 80, .rat 5], []⟩,
  ⟨"W1MOTION", [.rat 16, .rat 5, .rat 4, .rat 1], [], 0, [.rat 40, .rat 0, .rat 40, .rat 1, .rat 40, .rat 2, .rat 40, .rat 3, .rat 40, .rat 4, .rat 40, .rat 5], []⟩,
  ⟨"W1MOTION", [.rat 16, .rat 8, .rat 4, .rat 1], [], 0, [.rat 90, .rat 0, .rat 90, .rat 1, .rat 90, .rat 2, .rat 90, .rat 3, .rat 90, .rat 4, .rat 90, .rat 5], []⟩,
  ⟨"W1SFORCE", [.rat 17, .rat 5, .rat 1, .rat 1], [], 0, [.rat 1, .rat 0, .rat 10, .rat 1, .rat 10, .rat 2, .rat 10, .rat 3, .rat 10, .rat 4, .rat 10, .rat 5, .rat 10], []⟩,
  ⟨"W1SFORCE", [.rat 17, .rat 5, .rat 1, .rat 2], [], 0, [.rat 1, .rat 0, .rat 20, .rat 1, .rat 20, .rat 2, .rat 20, .rat 3, .rat 20, .rat 4, .rat 20, .rat 5, .rat 20], []⟩,
  ⟨"W1SFORCE", [.rat 17, .rat 5, .rat 1, .rat 3], [], 0, [.rat 1, .rat 0, .rat 30, .rat 1, .rat 30, .rat 2, .rat 30, .rat 3, .rat 30, .rat 4, .rat 30, .rat 5, .rat 30], []⟩,
  ⟨"W1SFORCE", [.rat 17, .rat 5, .rat 1, .rat 4], [], 0, [.rat 1, .rat 0, .rat 40, .rat 1, .rat 40, .rat 2, .rat 40, .rat 3, .rat 40, .rat 4, .rat 40, .rat 5, .rat 40], []⟩,
  ⟨"WFLUIDKN", [.rat 12, .rat 1, .rat 1, .rat 1], [], 0, [.rat 10, .rat 1, .rat 1, .rat 1, .rat 1, .rat 2, .rat 1, .rat 3], []⟩,
  ⟨"WFLUIDKN", [.rat 12, .rat 1, .rat 2, .rat 1], [], 0, [.rat 10, .rat 2, .rat 1, .rat 1, .rat 1, .rat 2, .rat 1, .rat 3], []⟩,
  ⟨"WFLUIDKN", [.rat 12, .rat 2, .rat 1, .rat 1], [], 0, [.rat 20, .rat 1, .rat 2, .rat 1, .rat 2, .rat 2, .rat 2, .rat 3], []⟩,
  ⟨"WFLUIDKN", [.rat 12, .rat 2, .rat 2, .rat 1], [], 0, [.rat 20, .rat 2, .rat 2, .rat 1, .rat 2, .rat 2, .rat 2, .rat 3], []⟩,
  ⟨"WFLUIDKN", [.rat 12, .rat 3, .rat 1, .rat 1], [], 0, [.rat 30, .rat 1, .rat 3, .rat 1, .rat 3, .rat 2, .rat 3, .rat 3], []⟩,
  ⟨"WFLUIDKN", [.rat 12, .rat 3, .rat 2, .rat 1], [], 0, [.rat 30, .rat 2, .rat 3, .rat 1, .rat 3, .rat 2, .rat 3, .rat 3], []⟩,
  ⟨"WFLUIDKN", [.rat 12, .rat 4, .rat 1, .rat 1], [], 0, [.rat 40, .rat 1, .rat 4, .rat 1, .rat 4, .rat 2, .rat 4, .rat 3], []⟩,
  ⟨"WFLUIDKN", [.rat 12, .rat 4, .rat 2, .rat 1], [], 0, [.rat 40, .rat 2, .rat 4, .rat 1, .rat 4, .rat 2, .rat 4, .rat 3], []⟩,
  ⟨"W2HDRIFT", [.rat 6, .rat 5, .rat 1, .rat 1], [], 0, [.rat 10, .rat 0], []⟩,
  ⟨"W2HDRIFT", [.rat 6, .rat 5, .rat 2, .rat 2], [], 0, [.rat 20, .rat 0], []⟩,
  ⟨"W2HDRIFT", [.rat 6, .rat 5, .rat 3, .rat 3], [], 0, [.rat 30, .rat 0], []⟩,
  ⟨"W2HDRIFT", [.rat 6, .rat 5, .rat 4, .rat 4], [], 0, [.rat 40, .rat 0], []⟩,
  ⟨"W1MATRIX", [.rat 42, .rat 1, .rat 5, .rat 5], [], 0, [.rat 1, .rat 31, .rat 1, .rat 0, .rat 0, .rat 0, .rat 0, .rat 0, .rat 1, .rat 1, .rat 1, .rat 1, .rat 1, .rat 1, .rat 1, .rat 2, .rat 2, .rat 2, .rat 2, .rat 2, .rat 1, .rat 3, .rat 3, .rat 3, .rat 3, .rat 3, .rat 1, .rat 4, .rat 4, .rat 4, .rat 4, .rat 4, .rat 1, .rat 5, .rat 5, .rat 5, .rat 5, .rat 5], []⟩,
  ⟨"W1MATRIX", [.rat 42, .rat 2, .rat 5, .rat 5], [], 0, [.rat 2, .rat 12, .rat 2, .rat 0, .rat 0, .rat 0, .rat 0, .rat 0, .rat 2, .rat 1, .rat 1, .rat 1, .rat 1, .rat 1, .rat 2, .rat 2, .rat 2, .rat 2, .rat 2, .rat 2, .rat 2, .rat 3, .rat 3, .rat 3, .rat 3, .rat 3, .rat 2, .rat 4, .rat 4, .rat 4, .rat 4, .rat 4, .rat 2, .rat 5, .rat 5, .rat 5, .rat 5, .rat 5], []⟩,
  ⟨"W1MATRIX", [.rat 42, .rat 3, .rat 5, .rat 5], [], 0, [.rat 3, .rat 12, .rat 3, .rat 0, .rat 0, .rat 0, .rat 0, .rat 0, .rat 3, .rat 1, .rat 1, .rat 1, .rat 1, .rat 1, .rat 3, .rat 2, .rat 2, .rat 2, .rat 2, .rat 2, .rat 3, .rat 3, .rat 3, .rat 3, .rat 3, .rat 3, .rat 3, .rat 4, .rat 4, .rat 4, .rat 4, .rat 4, .rat 3, .rat 5, .rat 5, .rat 5, .rat 5, .rat 5], []⟩,
  ⟨"W1PANPRE", [.rat 10, .rat 5, .rat 1, .rat 4], [], 0, [.rat 1, .rat 1, .rat 10, .rat 1, .rat 4, .rat 0], []⟩,
  ⟨"W1PANPRE", [.rat 10, .rat 5, .rat 1, .rat 7], [], 0, [.rat 1, .rat 1, .rat 10, .rat 1, .rat 7, .rat 0], []⟩,
  ⟨"W1PANPRE", [.rat 10, .rat 5, .rat 1, .rat 4], [], 0, [.rat 2, .rat 1, .rat 10, .rat 2, .rat 4, .rat 0], []⟩,
  ⟨"W1PANPRE", [.rat 10, .rat 5, .rat 1, .rat 7], [], 0, [.rat 2, .rat 1, .rat 10, .rat 2, .rat 7, .rat 0], []⟩,
  ⟨"W1PANPRE", [.rat 10, .rat 5, .rat 2, .rat 4], [], 0, [.rat 1, .rat 1, .rat 20, .rat 1, .rat 4, .rat 0], []⟩,
  ⟨"W1PANPRE", [.rat 10, .rat 5, .rat 2, .rat 7], [], 0, [.rat 1, .rat 1, .rat 20, .rat 1, .rat 7, .rat 0], []⟩,
  ⟨"W1PANPRE", [.rat 10, .rat 5, .rat 2, .rat 4], [], 0, [.rat 2, .rat 1, .rat 20, .rat 2, .rat 4, .rat 0], []⟩,
  ⟨"W1PANPRE", [.rat 10, .rat 5, .rat 2, .rat 7], [], 0, [.rat 2, .rat 1, .rat 20, .rat 2, .rat 7, .rat 0], []⟩,
  ⟨"W1PANPRE", [.rat 10, .rat 5, .rat 3, .rat 4], [], 0, [.rat 1, .rat 1, .rat 30, .rat 1, .rat 4, .rat 0], []⟩,
  ⟨"W1PANPRE", [.rat 10, .rat 5, .rat 3, .rat 7], [], 0, [.rat 1, .rat 1, .rat 30, .rat 1, .rat 7, .rat 0], []⟩,
  ⟨"W1PANPRE", [.rat 10, .rat 5, .rat 3, .rat 4], [], 0, [.rat 2, .rat 1, .rat 30, .rat 2, .rat 4, .rat 0], []⟩,
  ⟨"W1PANPRE", [.rat 10, .rat 5, .rat 3, .rat 7], [], 0, [.rat 2, .rat 1, .rat 30, .rat 2, .rat 7, .rat 0], []⟩,
  ⟨"W1PANPRE", [.rat 10, .rat 5, .rat 4, .rat 4], [], 0, [.rat 1, .rat 1, .rat 40, .rat 1, .rat 4, .rat 0], []⟩,
  ⟨"W1PANPRE", [.rat 10, .rat 5, .rat 4, .rat 7], [], 0, [.rat 1, .rat 1, .rat 40, .rat 1, .rat 7, .rat 0], []⟩,
  ⟨"W1PANPRE", [.rat 10, .rat 5, .rat 4, .rat 4], [], 0, [.rat 2, .rat 1, .rat 40, .rat 2, .rat 4, .rat 0], []⟩,
  ⟨"W1PANPRE", [.rat 10, .rat 5, .rat 4, .rat 7], [], 0, [.rat 2, .rat 1, .rat 40, .rat 2, .rat 7, .rat 0], []⟩,
  ⟨"IEND", [.rat 0, .rat 0, .rat 0, .rat 0], [], 0, [], []⟩]

/-- what is added to the tables -/
def hydOuts : List Added := [
  ⟨"IDENT", true, [.sc (.int 1), .sc (.int 5), .sc (.int 3)], []⟩,
  ⟨"WGLOBDEF", true, [.sc (.int 5), .sc (.flt (.rat 10)), .sc (.flt (.rat 1000)), .sc (.int 1), .sc (.flt (.rat 100))], []⟩,
  ⟨"WDRESREF", true, [.sc (.int 10), .sc (.int 1), .sc (.int 1), .sc (.int 2)], [some [.vec [.flt (.rat 1), .flt (.rat 3)]], some [.vec [.flt (.rat 1), .flt (.rat 2)]], none]⟩,
  ⟨"WDRESREF", false, [.sc (.int 10), .sc (.int 2), .sc (.int 1), .sc (.int 2)], [some [.vec [.flt (.rat 2), .flt (.rat 3)]], some [.vec [.flt (.rat 2), .flt (.rat (1/2))]], none]⟩,
  ⟨"WDRESREF", false, [.sc (.int 10), .sc (.int 3), .sc (.int 1), .sc (.int 2)], [some [.vec [.flt (.rat 3), .flt (.rat 1)]], some [.vec [.flt (.rat 3), .flt (.rat 2)]], none]⟩,
  ⟨"WDRESREF", false, [.sc (.int 10), .sc (.int 4), .sc (.int 1), .sc (.int 2)], [some [.vec [.flt (.rat 4), .flt (.rat 1)]], some [.vec [.flt (.rat 4), .flt (.rat (1/2))]], none]⟩,
  ⟨"WBODCON", true, [.sc (.int 4), .sc (.int 5), .sc (.int 1), .sc (.int 0)], [some []]⟩,
  ⟨"WBODCON", false, [.sc (.int 4), .sc (.int 8), .sc (.int 2), .sc (.int 0)], [some []]⟩,
  ⟨"WBODY", true, [.sc (.int 32), .sc (.int 5), .sc (.flt (.rat 20)), .sc (.flt (.rat 21)), .sc (.flt (.rat 22)), .sc (.flt (.rat 30)), .sc (.flt (.rat 31)), .sc (.flt (.rat 32)), .sc (.flt (.rat 33)), .sc (.flt (.rat 34)), .sc (.flt (.rat 35)), .sc (.flt (.rat 36)), .sc (.flt (.rat 38)), .sc (.flt (.rat 39)), .sc (.flt (.rat 40)), .sc (.flt (.rat 41)), .mat [[.flt (.rat 1), .flt (.rat 0), .flt (.rat 0), .flt (.rat 0)], [.flt (.rat 0), .flt (.rat 1), .flt (.rat 0), .flt (.rat 0)], [.flt (.rat 0), .flt (.rat 0), .flt (.rat 1), .flt (.rat 0)], [.flt (.rat 7), .flt (.rat 0), .flt (.rat 0), .flt (.rat 1)]]], []⟩,
  ⟨"WSECTION", true, [.sc (.int 14), .sc (.int 1), .sc (.int 1), .sc (.int 2), .sc (.int 11), .vec [.flt (.rat 0), .flt (.rat 0), .flt (.rat 0)], .vec [.flt (.rat 1), .flt (.rat 0), .flt (.rat 0)], .vec [.flt (.rat 0), .flt (.rat 1), .flt (.rat 0)]], []⟩,
  ⟨"WFKPOINT", true, [.sc (.int 5), .sc (.int 1), .vec [.flt (.rat 10), .flt (.rat 0), .flt (.rat (-1))]], []⟩,
  ⟨"WFKPOINT", false, [.sc (.int 5), .sc (.int 2), .vec [.flt (.rat 20), .flt (.rat 0), .flt (.rat (-1))]], []⟩,
  ⟨"W1MOTION", true, [.sc (.int 16), .sc (.int 5), .sc (.int 1), .sc (.int 1), .vec [.cpx (.rat 10) (.rat 0), .cpx (.rat 10) (.rat 1), .cpx (.rat 10) (.rat 2), .cpx (.rat 10) (.rat 3), .cpx (.rat 10) (.rat 4), .cpx (.rat 10) (.rat 5)]], []⟩,
  ⟨"W1MOTION", false, [.sc (.int 16), .sc (.int 8), .sc (.int 1), .sc (.int 1), .vec [.cpx (.rat 60) (.rat 0), .cpx (.rat 60) (.rat 1), .cpx (.rat 60) (.rat 2), .cpx (.rat 60) (.rat 3), .cpx (.rat 60) (.rat 4), .cpx (.rat 60) (.rat 5)]], []⟩,
  ⟨"W1MOTION", false, [.sc (.int 16), .sc (.int 5), .sc (.int 2), .sc (.int 1), .vec [.cpx (.rat 20) (.rat 0), .cpx (.rat 20) (.rat 1), .cpx (.rat 20) (.rat 2), .cpx (.rat 20) (.rat 3), .cpx (.rat 20) (.rat 4), .cpx (.rat 20) (.rat 5)]], []⟩,
  ⟨"W1MOTION", false, [.sc (.int 16), .sc (.int 8), .sc (.int 2), .sc (.int 1), .vec [.cpx (.rat 70) (.rat 0), .cpx (.rat 70) (.rat 1), .cpx (.rat 70) (.rat 2), .cpx (.rat 70) (.rat 3), .cpx (.rat 70) (.rat 4), .cpx (.rat 70) (.rat 5)]], []⟩,
  ⟨"W1MOTION", false, [.sc (.int 16), .sc (.int 5), .sc (.int 3), .sc (.int 1), .vec [.cpx (.rat 30) (.rat 0), .cpx (.rat 30) (.rat 1), .cpx (.rat 30) (.rat 2), .cpx (.rat 30) (.rat 3), .cpx (.rat 30) (.rat 4), .cpx (.rat 30) (.rat 5)]], []⟩,
  ⟨"W1MOTION", false, [.sc (.int 16), .sc (.int 8), .sc (.int 3), .sc (.int 1), .vec [.cpx (.rat 80) (.rat 0), .cpx (.rat 80) (.rat 1), .cpx (.rat 80) (.rat 2), .cpx (.rat 80) (.rat 3), .cpx (.rat 80) (.rat 4), .cpx (.rat 80) (.rat 5)]], []⟩,
  ⟨"W1MOTION", false, [.sc (.int 16), .sc (.int 5), .sc (.int 4), .sc (.int 1), .vec [.cpx (.rat 40) (.rat 0), .cpx (.rat 40) (.rat 1), .cpx (.rat 40) (.rat 2), .cpx (.rat 40) (.rat 3), .cpx (.rat 40) (.rat 4), .cpx (.rat 40) (.rat 5)]], []⟩,
  ⟨"W1MOTION", false, [.sc (.int 16), .sc (.int 8), .sc (.int 4), .sc (.int 1), .vec [.cpx (.rat 90) (.rat 0), .cpx (.rat 90) (.rat 1), .cpx (.rat 90) (.rat 2), .cpx (.rat 90) (.rat 3), .cpx (.rat 90) (.rat 4), .cpx (.rat 90) (.rat 5)]], []⟩,
  ⟨"W1SFORCE", true, [.sc (.int 17), .sc (.int 5), .sc (.int 1), .sc (.int 1), .sc (.int 1), .vec [.cpx (.rat 0) (.rat 10), .cpx (.rat 1) (.rat 10), .cpx (.rat 2) (.rat 10), .cpx (.rat 3) (.rat 10), .cpx (.rat 4) (.rat 10), .cpx (.rat 5) (.rat 10)]], []⟩,
  ⟨"W1SFORCE", false, [.sc (.int 17), .sc (.int 5), .sc (.int 1), .sc (.int 2), .sc (.int 1), .vec [.cpx (.rat 0) (.rat 20), .cpx (.rat 1) (.rat 20), .cpx (.rat 2) (.rat 20), .cpx (.rat 3) (.rat 20), .cpx (.rat 4) (.rat 20), .cpx (.rat 5) (.rat 20)]], []⟩,
  ⟨"W1SFORCE", false, [.sc (.int 17), .sc (.int 5), .sc (.int 1), .sc (.int 3), .sc (.int 1), .vec [.cpx (.rat 0) (.rat 30), .cpx (.rat 1) (.rat 30), .cpx (.rat 2) (.rat 30), .cpx (.rat 3) (.rat 30), .cpx (.rat 4) (.rat 30), .cpx (.rat 5) (.rat 30)]], []⟩,
  ⟨"W1SFORCE", false, [.sc (.int 17), .sc (.int 5), .sc (.int 1), .sc (.int 4), .sc (.int 1), .vec [.cpx (.rat 0) (.rat 40), .cpx (.rat 1) (.rat 40), .cpx (.rat 2) (.rat 40), .cpx (.rat 3) (.rat 40), .cpx (.rat 4) (.rat 40), .cpx (.rat 5) (.rat 40)]], []⟩,
  ⟨"WFLUIDKN", true, [.sc (.int 12), .sc (.int 1), .sc (.int 1), .sc (.int 1), .sc (.cpx (.rat 10) (.rat 1)), .vec [.cpx (.rat 1) (.rat 1), .cpx (.rat 1) (.rat 2), .cpx (.rat 1) (.rat 3)]], []⟩,
  ⟨"WFLUIDKN", false, [.sc (.int 12), .sc (.int 1), .sc (.int 2), .sc (.int 1), .sc (.cpx (.rat 10) (.rat 2)), .vec [.cpx (.rat 1) (.rat 1), .cpx (.rat 1) (.rat 2), .cpx (.rat 1) (.rat 3)]], []⟩,
  ⟨"WFLUIDKN", false, [.sc (.int 12), .sc (.int 2), .sc (.int 1), .sc (.int 1), .sc (.cpx (.rat 20) (.rat 1)), .vec [.cpx (.rat 2) (.rat 1), .cpx (.rat 2) (.rat 2), .cpx (.rat 2) (.rat 3)]], []⟩,
  ⟨"WFLUIDKN", false, [.sc (.int 12), .sc (.int 2), .sc (.int 2), .sc (.int 1), .sc (.cpx (.rat 20) (.rat 2)), .vec [.cpx (.rat 2) (.rat 1), .cpx (.rat 2) (.rat 2), .cpx (.rat 2) (.rat 3)]], []⟩,
  ⟨"WFLUIDKN", false, [.sc (.int 12), .sc (.int 3), .sc (.int 1), .sc (.int 1), .sc (.cpx (.rat 30) (.rat 1)), .vec [.cpx (.rat 3) (.rat 1), .cpx (.rat 3) (.rat 2), .cpx (.rat 3) (.rat 3)]], []⟩,
  ⟨"WFLUIDKN", false, [.sc (.int 12), .sc (.int 3), .sc (.int 2), .sc (.int 1), .sc (.cpx (.rat 30) (.rat 2)), .vec [.cpx (.rat 3) (.rat 1), .cpx (.rat 3) (.rat 2), .cpx (.rat 3) (.rat 3)]], []⟩,
  ⟨"WFLUIDKN", false, [.sc (.int 12), .sc (.int 4), .sc (.int 1), .sc (.int 1), .sc (.cpx (.rat 40) (.rat 1)), .vec [.cpx (.rat 4) (.rat 1), .cpx (.rat 4) (.rat 2), .cpx (.rat 4) (.rat 3)]], []⟩,
  ⟨"WFLUIDKN", false, [.sc (.int 12), .sc (.int 4), .sc (.int 2), .sc (.int 1), .sc (.cpx (.rat 40) (.rat 2)), .vec [.cpx (.rat 4) (.rat 1), .cpx (.rat 4) (.rat 2), .cpx (.rat 4) (.rat 3)]], []⟩,
  ⟨"W2HDRIFT", true, [.sc (.int 6), .sc (.int 5), .sc (.int 1), .vec [.flt (.rat 1), .flt (.rat 10), .flt (.rat 0)]], []⟩,
  ⟨"W2HDRIFT", false, [.sc (.int 6), .sc (.int 5), .sc (.int 2), .vec [.flt (.rat 2), .flt (.rat 20), .flt (.rat 0)]], []⟩,
  ⟨"W2HDRIFT", false, [.sc (.int 6), .sc (.int 5), .sc (.int 3), .vec [.flt (.rat 3), .flt (.rat 30), .flt (.rat 0)]], []⟩,
  ⟨"W2HDRIFT", false, [.sc (.int 6), .sc (.int 5), .sc (.int 4), .vec [.flt (.rat 4), .flt (.rat 40), .flt (.rat 0)]], []⟩,
  ⟨"W1MATRIX", true, [.sc (.int 42), .sc (.int 1), .sc (.int 5), .sc (.int 5), .sc (.int 1), .sc (.int 31), .mat [[.flt (.rat 1), .flt (.rat 0), .flt (.rat 0), .flt (.rat 0), .flt (.rat 0), .flt (.rat 0)], [.flt (.rat 1), .flt (.rat 1), .flt (.rat 1), .flt (.rat 1), .flt (.rat 1), .flt (.rat 1)], [.flt (.rat 1), .flt (.rat 2), .flt (.rat 2), .flt (.rat 2), .flt (.rat 2), .flt (.rat 2)], [.flt (.rat 1), .flt (.rat 3), .flt (.rat 3), .flt (.rat 3), .flt (.rat 3), .flt (.rat 3)], [.flt (.rat 1), .flt (.rat 4), .flt (.rat 4), .flt (.rat 4), .flt (.rat 4), .flt (.rat 4)], [.flt (.rat 1), .flt (.rat 5), .flt (.rat 5), .flt (.rat 5), .flt (.rat 5), .flt (.rat 5)]]], []⟩,
  ⟨"W1MATRIX", false, [.sc (.int 42), .sc (.int 2), .sc (.int 5), .sc (.int 5), .sc (.int 2), .sc (.int 12), .mat [[.flt (.rat 2), .flt (.rat 0), .flt (.rat 0), .flt (.rat 0), .flt (.rat 0), .flt (.rat 0)], [.flt (.rat 2), .flt (.rat 1), .flt (.rat 1), .flt (.rat 1), .flt (.rat 1), .flt (.rat 1)], [.flt (.rat 2), .flt (.rat 2), .flt (.rat 2), .flt (.rat 2), .flt (.rat 2), .flt (.rat 2)], [.flt (.rat 2), .flt (.rat 3), .flt (.rat 3), .flt (.rat 3), .flt (.rat 3), .flt (.rat 3)], [.flt (.rat 2), .flt (.rat 4), .flt (.rat 4), .flt (.rat 4), .flt (.rat 4), .flt (.rat 4)], [.flt (.rat 2), .flt (.rat 5), .flt (.rat 5), .flt (.rat 5), .flt (.rat 5), .flt (.rat 5)]]], []⟩,
  ⟨"W1MATRIX", false, [.sc (.int 42), .sc (.int 3), .sc (.int 5), .sc (.int 5), .sc (.int 3), .sc (.int 12), .mat [[.flt (.rat 3), .flt (.rat 0), .flt (.rat 0), .flt (.rat 0), .flt (.rat 0), .flt (.rat 0)], [.flt (.rat 3), .flt (.rat 1), .flt (.rat 1), .flt (.rat 1), .flt (.rat 1), .flt (.rat 1)], [.flt (.rat 3), .flt (.rat 2), .flt (.rat 2), .flt (.rat 2), .flt (.rat 2), .flt (.rat 2)], [.flt (.rat 3), .flt (.rat 3), .flt (.rat 3), .flt (.rat 3), .flt (.rat 3), .flt (.rat 3)], [.flt (.rat 3), .flt (.rat 4), .flt (.rat 4), .flt (.rat 4), .flt (.rat 4), .flt (.rat 4)], [.flt (.rat 3), .flt (.rat 5), .flt (.rat 5), .flt (.rat 5), .flt (.rat 5), .flt (.rat 5)]]], []⟩,
  ⟨"W1PANPRE", true, [.sc (.int 10), .sc (.int 5), .sc (.int 1), .sc (.int 4), .sc (.int 1), .sc (.int 1), .sc (.cpx (.rat 10) (.rat 1)), .sc (.int 4), .sc (.int 0)], []⟩,
  ⟨"W1PANPRE", false, [.sc (.int 10), .sc (.int 5), .sc (.int 1), .sc (.int 7), .sc (.int 1), .sc (.int 1), .sc (.cpx (.rat 10) (.rat 1)), .sc (.int 7), .sc (.int 0)], []⟩,
  ⟨"W1PANPRE", false, [.sc (.int 10), .sc (.int 5), .sc (.int 1), .sc (.int 4), .sc (.int 2), .sc (.int 1), .sc (.cpx (.rat 10) (.rat 2)), .sc (.int 4), .sc (.int 0)], []⟩,
  ⟨"W1PANPRE", false, [.sc (.int 10), .sc (.int 5), .sc (.int 1), .sc (.int 7), .sc (.int 2), .sc (.int 1), .sc (.cpx (.rat 10) (.rat 2)), .sc (.int 7), .sc (.int 0)], []⟩,
  ⟨"W1PANPRE", false, [.sc (.int 10), .sc (.int 5), .sc (.int 2), .sc (.int 4), .sc (.int 1), .sc (.int 1), .sc (.cpx (.rat 20) (.rat 1)), .sc (.int 4), .sc (.int 0)], []⟩,
  ⟨"W1PANPRE", false, [.sc (.int 10), .sc (.int 5), .sc (.int 2), .sc (.int 7), .sc (.int 1), .sc (.int 1), .sc (.cpx (.rat 20) (.rat 1)), .sc (.int 7), .sc (.int 0)], []⟩,
  ⟨"W1PANPRE", false, [.sc (.int 10), .sc (.int 5), .sc (.int 2), .sc (.int 4), .sc (.int 2), .sc (.int 1), .sc (.cpx (.rat 20) (.rat 2)), .sc (.int 4), .sc (.int 0)], []⟩,
  ⟨"W1PANPRE", false, [.sc (.int 10), .sc (.int 5), .sc (.int 2), .sc (.int 7), .sc (.int 2), .sc (.int 1), .sc (.cpx (.rat 20) (.rat 2)), .sc (.int 7), .sc (.int 0)], []⟩,
  ⟨"W1PANPRE", false, [.sc (.int 10), .sc (.int 5), .sc (.int 3), .sc (.int 4), .sc (.int 1), .sc (.int 1), .sc (.cpx (.rat 30) (.rat 1)), .sc (.int 4), .sc (.int 0)], []⟩,
  ⟨"W1PANPRE", false, [.sc (.int 10), .sc (.int 5), .sc (.int 3), .sc (.int 7), .sc (.int 1), .sc (.int 1), .sc (.cpx (.rat 30) (.rat 1)), .sc (.int 7), .sc (.int 0)], []⟩,
  ⟨"W1PANPRE", false, [.sc (.int 10), .sc (.int 5), .sc (.int 3), .sc (.int 4), .sc (.int 2), .sc (.int 1), .sc (.cpx (.rat 30) (.rat 2)), .sc (.int 4), .sc (.int 0)], []⟩,
  ⟨"W1PANPRE", false, [.sc (.int 10), .sc (.int 5), .sc (.int 3), .sc (.int 7), .sc (.int 2), .sc (.int 1), .sc (.cpx (.rat 30) (.rat 2)), .sc (.int 7), .sc (.int 0)], []⟩,
  ⟨"W1PANPRE", false, [.sc (.int 10), .sc (.int 5), .sc (.int 4), .sc (.int 4), .sc (.int 1), .sc (.int 1), .sc (.cpx (.rat 40) (.rat 1)), .sc (.int 4), .sc (.int 0)], []⟩,
  ⟨"W1PANPRE", false, [.sc (.int 10), .sc (.int 5), .sc (.int 4), .sc (.int 7), .sc (.int 1), .sc (.int 1), .sc (.cpx (.rat 40) (.rat 1)), .sc (.int 7), .sc (.int 0)], []⟩,
  ⟨"W1PANPRE", false, [.sc (.int 10), .sc (.int 5), .sc (.int 4), .sc (.int 4), .sc (.int 2), .sc (.int 1), .sc (.cpx (.rat 40) (.rat 2)), .sc (.int 4), .sc (.int 0)], []⟩,
  ⟨"W1PANPRE", false, [.sc (.int 10), .sc (.int 5), .sc (.int 4), .sc (.int 7), .sc (.int 2), .sc (.int 1), .sc (.cpx (.rat 40) (.rat 2)), .sc (.int 7), .sc (.int 0)], []⟩]

/-- the record types read -/
def hydNames : List String :=
  ["IDENT", "WGLOBDEF", "WDRESREF", "WBODCON", "WBODY", "WSECTION", "WFKPOINT", "W1MOTION", "W1SFORCE", "WFLUIDKN", "W2HDRIFT", "W1MATRIX", "W1PANPRE", "IEND"]

theorem stored_flts (l : List PyF) (hl : ∀ x ∈ l, x.single = x) :
    Stored .flt (.vec (l.map Sc.num).length) (vector l) (.vec (l.map SCell.flt)) := by
  refine .vec ?_
  rw [List.forall₂_map_left_iff, List.forall₂_map_right_iff]
  exact List.forall₂_same.mpr fun x hx => .flt (rounds_of (hl x hx))

theorem stored_vecs {k : Kind} {n : Nat} {l : List Sc} {cs : List SCell} (hn : l.length = n)
    (h : List.Forall₂ (StoredSc k) l cs) : Stored k (.vec n) (.vec l) (.vec cs) := by
  subst hn; exact .vec h

/-- prove that a concrete row is stored -/
macro "storedH" : tactic => `(tactic| (
  refine ⟨?_, rfl, rfl⟩
  repeat' (first
    | exact List.Forall₂.nil
    | refine List.Forall₂.cons ?_ ?_
    | exact Stored.sc (.flt (rounds_of (by decide +kernel)))
    | exact Stored.sc (.cpx (rounds_of (by decide +kernel)) (rounds_of (by decide +kernel)))
    | exact StoredSc.flt (rounds_of (by decide +kernel))
    | exact StoredSc.cpx (rounds_of (by decide +kernel)) (rounds_of (by decide +kernel))
    | exact Stored.sc (.intInt _)
    | exact stored_flts [_, _] (by decide +kernel)
    | exact stored_flts [_, _, _] (by decide +kernel)
    | exact Stored.sc (.int (toInt_hasInt (by decide +kernel)))
    | refine stored_vecs rfl ?_
    | refine Stored.mat rfl (by simp) ?_
    | exact trivial)))

set_option maxHeartbeats 2000000 in
theorem hydAccepted (sk : LRec → Bool) :
    Accepts none sk (fun _ => none) none [] hydFile hydOuts hydNames := by
  have nv : ∀ {n : String} {x : PyF} {t : List PyF} {p sk v d}, x.ltZero = false →
      NotVoid ⟨n, x :: t, p, sk, v, d⟩ := fun h => ⟨_, _, rfl, h⟩
  have fo : ∀ {r : LRec}, r.name ≠ "SCONMESH" → FirstOK r := fun h h' => absurd h' h
  have int : ∀ {x : PyF} (n : Int), x.toInt = .ok n → HasInt x n := fun n h => toInt_hasInt h
  unfold hydFile hydOuts hydNames
  refine .ident rfl trivial (nv (by decide +kernel)) ?_ ?_
  · exact ⟨_, lay "IDENT", .ident (int 1 (by decide +kernel)) (int 5 (by decide +kernel)) (int 3 (by decide +kernel)), by decide +kernel,
      rfl, rfl, rfl, by storedH, by storedH⟩
  refine .first (by simp) (by simp) trivial (nv (by decide +kernel)) (fo (by simp)) ?_ ?_
  · exact ⟨_, lay "WGLOBDEF", .wglobdef (n := 1) (int 1 (by decide +kernel)) (by decide), by decide +kernel,
      rfl, rfl, rfl, by storedH, by storedH⟩
  refine .first (by simp) (by simp) trivial (nv (by decide +kernel)) (fo (by simp)) ?_ ?_
  · exact ⟨_, lay "WDRESREF", .wdresref (n := 1) (m := 2) (ts := [(1, [vector [.rat 1, .rat 3]]), (2, [vector [.rat 1, .rat 2]])]) (int 1 (by decide +kernel)) (int 2 (by decide +kernel))
      (.cons (d := [.rat 1, .rat 3]) (l := [.rat 2, .rat 1, .rat 2]) (int 1 (by decide +kernel))
        ⟨[[.rat 1, .rat 3]], by simp, rfl, rfl⟩ rfl
        (.cons (d := [.rat 1, .rat 2]) (l := []) (int 2 (by decide +kernel)) ⟨[[.rat 1, .rat 2]], by simp, rfl, rfl⟩ rfl .nil))
      (.given (vs := [vector [.rat 1, .rat 3]]) (by simp) (by simp))
      (.given (vs := [vector [.rat 1, .rat 2]]) (by simp) (by simp)) (.absent (by simp)), by decide +kernel,
      rfl, rfl, rfl, by storedH, by storedH⟩
  refine more rfl (by simp) ?_ ?_
  · exact ⟨_, lay "WDRESREF", .wdresref (n := 1) (m := 2) (ts := [(1, [vector [.rat 2, .rat 3]]), (2, [vector [.rat 2, .rat (1/2)]])]) (int 1 (by decide +kernel)) (int 2 (by decide +kernel))
      (.cons (d := [.rat 2, .rat 3]) (l := [.rat 2, .rat 2, .rat (1/2)]) (int 1 (by decide +kernel))
        ⟨[[.rat 2, .rat 3]], by simp, rfl, rfl⟩ rfl
        (.cons (d := [.rat 2, .rat (1/2)]) (l := []) (int 2 (by decide +kernel)) ⟨[[.rat 2, .rat (1/2)]], by simp, rfl, rfl⟩ rfl .nil))
      (.given (vs := [vector [.rat 2, .rat 3]]) (by simp) (by simp))
      (.given (vs := [vector [.rat 2, .rat (1/2)]]) (by simp) (by simp)) (.absent (by simp)), by decide +kernel,
      rfl, rfl, rfl, by storedH, by storedH⟩
  refine more rfl (by simp) ?_ ?_
  · exact ⟨_, lay "WDRESREF", .wdresref (n := 1) (m := 2) (ts := [(1, [vector [.rat 3, .rat 1]]), (2, [vector [.rat 3, .rat 2]])]) (int 1 (by decide +kernel)) (int 2 (by decide +kernel))
      (.cons (d := [.rat 3, .rat 1]) (l := [.rat 2, .rat 3, .rat 2]) (int 1 (by decide +kernel))
        ⟨[[.rat 3, .rat 1]], by simp, rfl, rfl⟩ rfl
        (.cons (d := [.rat 3, .rat 2]) (l := []) (int 2 (by decide +kernel)) ⟨[[.rat 3, .rat 2]], by simp, rfl, rfl⟩ rfl .nil))
      (.given (vs := [vector [.rat 3, .rat 1]]) (by simp) (by simp))
      (.given (vs := [vector [.rat 3, .rat 2]]) (by simp) (by simp)) (.absent (by simp)), by decide +kernel,
      rfl, rfl, rfl, by storedH, by storedH⟩
  refine more rfl (by simp) ?_ ?_
  · exact ⟨_, lay "WDRESREF", .wdresref (n := 1) (m := 2) (ts := [(1, [vector [.rat 4, .rat 1]]), (2, [vector [.rat 4, .rat (1/2)]])]) (int 1 (by decide +kernel)) (int 2 (by decide +kernel))
      (.cons (d := [.rat 4, .rat 1]) (l := [.rat 2, .rat 4, .rat (1/2)]) (int 1 (by decide +kernel))
        ⟨[[.rat 4, .rat 1]], by simp, rfl, rfl⟩ rfl
        (.cons (d := [.rat 4, .rat (1/2)]) (l := []) (int 2 (by decide +kernel)) ⟨[[.rat 4, .rat (1/2)]], by simp, rfl, rfl⟩ rfl .nil))
      (.given (vs := [vector [.rat 4, .rat 1]]) (by simp) (by simp))
      (.given (vs := [vector [.rat 4, .rat (1/2)]]) (by simp) (by simp)) (.absent (by simp)), by decide +kernel,
      rfl, rfl, rfl, by storedH, by storedH⟩
  refine .first (by simp) (by simp) trivial (nv (by decide +kernel)) (fo (by simp)) ?_ ?_
  · exact ⟨_, lay "WBODCON", .triples (by simp) (int 0 (by decide +kernel)) ⟨[], by simp, rfl, rfl⟩ rfl, by decide +kernel,
      rfl, rfl, rfl, by storedH, by storedH⟩
  refine more rfl (by simp) ?_ ?_
  · exact ⟨_, lay "WBODCON", .triples (by simp) (int 0 (by decide +kernel)) ⟨[], by simp, rfl, rfl⟩ rfl, by decide +kernel,
      rfl, rfl, rfl, by storedH, by storedH⟩
  refine .first (by simp) (by simp) trivial (nv (by decide +kernel)) (fo (by simp)) ?_ ?_
  · exact ⟨_, lay "WBODY", .wbody (more := [.rat 22, .rat 30, .rat 31, .rat 32, .rat 33, .rat 34, .rat 35, .rat 36, .rat 38, .rat 39, .rat 40, .rat 41]) (vals := [.rat 1, .rat 0, .rat 0, .rat 0, .rat 0, .rat 1, .rat 0, .rat 0, .rat 0, .rat 0, .rat 1, .rat 0, .rat 7, .rat 0, .rat 0, .rat 1]) rfl ⟨[[.rat 1, .rat 0, .rat 0, .rat 0], [.rat 0, .rat 1, .rat 0, .rat 0], [.rat 0, .rat 0, .rat 1, .rat 0], [.rat 7, .rat 0, .rat 0, .rat 1]], rfl, by simp, rfl, rfl⟩, by decide +kernel,
      rfl, rfl, rfl, by storedH, by storedH⟩
  refine .first (by simp) (by simp) trivial (nv (by decide +kernel)) (fo (by simp)) ?_ ?_
  · exact ⟨_, lay "WSECTION", .wsection, by decide +kernel,
      rfl, rfl, rfl, by storedH, by storedH⟩
  refine .first (by simp) (by simp) trivial (nv (by decide +kernel)) (fo (by simp)) ?_ ?_
  · exact ⟨_, lay "WFKPOINT", .wfkpoint, by decide +kernel,
      rfl, rfl, rfl, by storedH, by storedH⟩
  refine more rfl (by simp) ?_ ?_
  · exact ⟨_, lay "WFKPOINT", .wfkpoint, by decide +kernel,
      rfl, rfl, rfl, by storedH, by storedH⟩
  refine .first (by simp) (by simp) trivial (nv (by decide +kernel)) (fo (by simp)) ?_ ?_
  · exact ⟨_, lay "W1MOTION", .six (n := 1) (by simp) (int 1 (by decide +kernel)) (.complex (by decide) (.cons _ _ (.cons _ _ (.cons _ _ (.cons _ _ (.cons _ _ (.cons _ _ .nil)))))) rfl), by decide +kernel,
      rfl, rfl, rfl, by storedH, by storedH⟩
  refine more rfl (by simp) ?_ ?_
  · exact ⟨_, lay "W1MOTION", .six (n := 1) (by simp) (int 1 (by decide +kernel)) (.complex (by decide) (.cons _ _ (.cons _ _ (.cons _ _ (.cons _ _ (.cons _ _ (.cons _ _ .nil)))))) rfl), by decide +kernel,
      rfl, rfl, rfl, by storedH, by storedH⟩
  refine more rfl (by simp) ?_ ?_
  · exact ⟨_, lay "W1MOTION", .six (n := 1) (by simp) (int 1 (by decide +kernel)) (.complex (by decide) (.cons _ _ (.cons _ _ (.cons _ _ (.cons _ _ (.cons _ _ (.cons _ _ .nil)))))) rfl), by decide +kernel,
      rfl, rfl, rfl, by storedH, by storedH⟩
  refine more rfl (by simp) ?_ ?_
  · exact ⟨_, lay "W1MOTION", .six (n := 1) (by simp) (int 1 (by decide +kernel)) (.complex (by decide) (.cons _ _ (.cons _ _ (.cons _ _ (.cons _ _ (.cons _ _ (.cons _ _ .nil)))))) rfl), by decide +kernel,
      rfl, rfl, rfl, by storedH, by storedH⟩
  refine more rfl (by simp) ?_ ?_
  · exact ⟨_, lay "W1MOTION", .six (n := 1) (by simp) (int 1 (by decide +kernel)) (.complex (by decide) (.cons _ _ (.cons _ _ (.cons _ _ (.cons _ _ (.cons _ _ (.cons _ _ .nil)))))) rfl), by decide +kernel,
      rfl, rfl, rfl, by storedH, by storedH⟩
  refine more rfl (by simp) ?_ ?_
  · exact ⟨_, lay "W1MOTION", .six (n := 1) (by simp) (int 1 (by decide +kernel)) (.complex (by decide) (.cons _ _ (.cons _ _ (.cons _ _ (.cons _ _ (.cons _ _ (.cons _ _ .nil)))))) rfl), by decide +kernel,
      rfl, rfl, rfl, by storedH, by storedH⟩
  refine more rfl (by simp) ?_ ?_
  · exact ⟨_, lay "W1MOTION", .six (n := 1) (by simp) (int 1 (by decide +kernel)) (.complex (by decide) (.cons _ _ (.cons _ _ (.cons _ _ (.cons _ _ (.cons _ _ (.cons _ _ .nil)))))) rfl), by decide +kernel,
      rfl, rfl, rfl, by storedH, by storedH⟩
  refine more rfl (by simp) ?_ ?_
  · exact ⟨_, lay "W1MOTION", .six (n := 1) (by simp) (int 1 (by decide +kernel)) (.complex (by decide) (.cons _ _ (.cons _ _ (.cons _ _ (.cons _ _ (.cons _ _ (.cons _ _ .nil)))))) rfl), by decide +kernel,
      rfl, rfl, rfl, by storedH, by storedH⟩
  refine .first (by simp) (by simp) trivial (nv (by decide +kernel)) (fo (by simp)) ?_ ?_
  · exact ⟨_, lay "W1SFORCE", .w1sforce (n := 1) (int 1 (by decide +kernel)) (.complex (by decide) (.cons _ _ (.cons _ _ (.cons _ _ (.cons _ _ (.cons _ _ (.cons _ _ .nil)))))) rfl), by decide +kernel,
      rfl, rfl, rfl, by storedH, by storedH⟩
  refine more rfl (by simp) ?_ ?_
  · exact ⟨_, lay "W1SFORCE", .w1sforce (n := 1) (int 1 (by decide +kernel)) (.complex (by decide) (.cons _ _ (.cons _ _ (.cons _ _ (.cons _ _ (.cons _ _ (.cons _ _ .nil)))))) rfl), by decide +kernel,
      rfl, rfl, rfl, by storedH, by storedH⟩
  refine more rfl (by simp) ?_ ?_
  · exact ⟨_, lay "W1SFORCE", .w1sforce (n := 1) (int 1 (by decide +kernel)) (.complex (by decide) (.cons _ _ (.cons _ _ (.cons _ _ (.cons _ _ (.cons _ _ (.cons _ _ .nil)))))) rfl), by decide +kernel,
      rfl, rfl, rfl, by storedH, by storedH⟩
  refine more rfl (by simp) ?_ ?_
  · exact ⟨_, lay "W1SFORCE", .w1sforce (n := 1) (int 1 (by decide +kernel)) (.complex (by decide) (.cons _ _ (.cons _ _ (.cons _ _ (.cons _ _ (.cons _ _ (.cons _ _ .nil)))))) rfl), by decide +kernel,
      rfl, rfl, rfl, by storedH, by storedH⟩
  refine .first (by simp) (by simp) trivial (nv (by decide +kernel)) (fo (by simp)) ?_ ?_
  · exact ⟨_, lay "WFLUIDKN", .wfluidknC (n := 1) (int 1 (by decide +kernel)) (by decide) (.cons _ _ (.cons _ _ (.cons _ _ .nil))) rfl, by decide +kernel,
      rfl, rfl, rfl, by storedH, by storedH⟩
  refine more rfl (by simp) ?_ ?_
  · exact ⟨_, lay "WFLUIDKN", .wfluidknC (n := 1) (int 1 (by decide +kernel)) (by decide) (.cons _ _ (.cons _ _ (.cons _ _ .nil))) rfl, by decide +kernel,
      rfl, rfl, rfl, by storedH, by storedH⟩
  refine more rfl (by simp) ?_ ?_
  · exact ⟨_, lay "WFLUIDKN", .wfluidknC (n := 1) (int 1 (by decide +kernel)) (by decide) (.cons _ _ (.cons _ _ (.cons _ _ .nil))) rfl, by decide +kernel,
      rfl, rfl, rfl, by storedH, by storedH⟩
  refine more rfl (by simp) ?_ ?_
  · exact ⟨_, lay "WFLUIDKN", .wfluidknC (n := 1) (int 1 (by decide +kernel)) (by decide) (.cons _ _ (.cons _ _ (.cons _ _ .nil))) rfl, by decide +kernel,
      rfl, rfl, rfl, by storedH, by storedH⟩
  refine more rfl (by simp) ?_ ?_
  · exact ⟨_, lay "WFLUIDKN", .wfluidknC (n := 1) (int 1 (by decide +kernel)) (by decide) (.cons _ _ (.cons _ _ (.cons _ _ .nil))) rfl, by decide +kernel,
      rfl, rfl, rfl, by storedH, by storedH⟩
  refine more rfl (by simp) ?_ ?_
  · exact ⟨_, lay "WFLUIDKN", .wfluidknC (n := 1) (int 1 (by decide +kernel)) (by decide) (.cons _ _ (.cons _ _ (.cons _ _ .nil))) rfl, by decide +kernel,
      rfl, rfl, rfl, by storedH, by storedH⟩
  refine more rfl (by simp) ?_ ?_
  · exact ⟨_, lay "WFLUIDKN", .wfluidknC (n := 1) (int 1 (by decide +kernel)) (by decide) (.cons _ _ (.cons _ _ (.cons _ _ .nil))) rfl, by decide +kernel,
      rfl, rfl, rfl, by storedH, by storedH⟩
  refine more rfl (by simp) ?_ ?_
  · exact ⟨_, lay "WFLUIDKN", .wfluidknC (n := 1) (int 1 (by decide +kernel)) (by decide) (.cons _ _ (.cons _ _ (.cons _ _ .nil))) rfl, by decide +kernel,
      rfl, rfl, rfl, by storedH, by storedH⟩
  refine .first (by simp) (by simp) trivial (nv (by decide +kernel)) (fo (by simp)) ?_ ?_
  · exact ⟨_, lay "W2HDRIFT", .w2hdrift, by decide +kernel,
      rfl, rfl, rfl, by storedH, by storedH⟩
  refine more rfl (by simp) ?_ ?_
  · exact ⟨_, lay "W2HDRIFT", .w2hdrift, by decide +kernel,
      rfl, rfl, rfl, by storedH, by storedH⟩
  refine more rfl (by simp) ?_ ?_
  · exact ⟨_, lay "W2HDRIFT", .w2hdrift, by decide +kernel,
      rfl, rfl, rfl, by storedH, by storedH⟩
  refine more rfl (by simp) ?_ ?_
  · exact ⟨_, lay "W2HDRIFT", .w2hdrift, by decide +kernel,
      rfl, rfl, rfl, by storedH, by storedH⟩
  refine .first (by simp) (by simp) trivial (nv (by decide +kernel)) (fo (by simp)) ?_ ?_
  · exact ⟨_, lay "W1MATRIX", .w1matrix (vals := [.rat 1, .rat 0, .rat 0, .rat 0, .rat 0, .rat 0, .rat 1, .rat 1, .rat 1, .rat 1, .rat 1, .rat 1, .rat 1, .rat 2, .rat 2, .rat 2, .rat 2, .rat 2, .rat 1, .rat 3, .rat 3, .rat 3, .rat 3, .rat 3, .rat 1, .rat 4, .rat 4, .rat 4, .rat 4, .rat 4, .rat 1, .rat 5, .rat 5, .rat 5, .rat 5, .rat 5]) ⟨[[.rat 1, .rat 0, .rat 0, .rat 0, .rat 0, .rat 0], [.rat 1, .rat 1, .rat 1, .rat 1, .rat 1, .rat 1], [.rat 1, .rat 2, .rat 2, .rat 2, .rat 2, .rat 2], [.rat 1, .rat 3, .rat 3, .rat 3, .rat 3, .rat 3], [.rat 1, .rat 4, .rat 4, .rat 4, .rat 4, .rat 4], [.rat 1, .rat 5, .rat 5, .rat 5, .rat 5, .rat 5]], rfl, by simp, rfl, rfl⟩, by decide +kernel,
      rfl, rfl, rfl, by storedH, by storedH⟩
  refine more rfl (by simp) ?_ ?_
  · exact ⟨_, lay "W1MATRIX", .w1matrix (vals := [.rat 2, .rat 0, .rat 0, .rat 0, .rat 0, .rat 0, .rat 2, .rat 1, .rat 1, .rat 1, .rat 1, .rat 1, .rat 2, .rat 2, .rat 2, .rat 2, .rat 2, .rat 2, .rat 2, .rat 3, .rat 3, .rat 3, .rat 3, .rat 3, .rat 2, .rat 4, .rat 4, .rat 4, .rat 4, .rat 4, .rat 2, .rat 5, .rat 5, .rat 5, .rat 5, .rat 5]) ⟨[[.rat 2, .rat 0, .rat 0, .rat 0, .rat 0, .rat 0], [.rat 2, .rat 1, .rat 1, .rat 1, .rat 1, .rat 1], [.rat 2, .rat 2, .rat 2, .rat 2, .rat 2, .rat 2], [.rat 2, .rat 3, .rat 3, .rat 3, .rat 3, .rat 3], [.rat 2, .rat 4, .rat 4, .rat 4, .rat 4, .rat 4], [.rat 2, .rat 5, .rat 5, .rat 5, .rat 5, .rat 5]], rfl, by simp, rfl, rfl⟩, by decide +kernel,
      rfl, rfl, rfl, by storedH, by storedH⟩
  refine more rfl (by simp) ?_ ?_
  · exact ⟨_, lay "W1MATRIX", .w1matrix (vals := [.rat 3, .rat 0, .rat 0, .rat 0, .rat 0, .rat 0, .rat 3, .rat 1, .rat 1, .rat 1, .rat 1, .rat 1, .rat 3, .rat 2, .rat 2, .rat 2, .rat 2, .rat 2, .rat 3, .rat 3, .rat 3, .rat 3, .rat 3, .rat 3, .rat 3, .rat 4, .rat 4, .rat 4, .rat 4, .rat 4, .rat 3, .rat 5, .rat 5, .rat 5, .rat 5, .rat 5]) ⟨[[.rat 3, .rat 0, .rat 0, .rat 0, .rat 0, .rat 0], [.rat 3, .rat 1, .rat 1, .rat 1, .rat 1, .rat 1], [.rat 3, .rat 2, .rat 2, .rat 2, .rat 2, .rat 2], [.rat 3, .rat 3, .rat 3, .rat 3, .rat 3, .rat 3], [.rat 3, .rat 4, .rat 4, .rat 4, .rat 4, .rat 4], [.rat 3, .rat 5, .rat 5, .rat 5, .rat 5, .rat 5]], rfl, by simp, rfl, rfl⟩, by decide +kernel,
      rfl, rfl, rfl, by storedH, by storedH⟩
  refine .first (by simp) (by simp) trivial (nv (by decide +kernel)) (fo (by simp)) ?_ ?_
  · exact ⟨_, lay "W1PANPRE", .w1panpreC (n := 1) (int 1 (by decide +kernel)) (by decide), by decide +kernel,
      rfl, rfl, rfl, by storedH, by storedH⟩
  refine more rfl (by simp) ?_ ?_
  · exact ⟨_, lay "W1PANPRE", .w1panpreC (n := 1) (int 1 (by decide +kernel)) (by decide), by decide +kernel,
      rfl, rfl, rfl, by storedH, by storedH⟩
  refine more rfl (by simp) ?_ ?_
  · exact ⟨_, lay "W1PANPRE", .w1panpreC (n := 1) (int 1 (by decide +kernel)) (by decide), by decide +kernel,
      rfl, rfl, rfl, by storedH, by storedH⟩
  refine more rfl (by simp) ?_ ?_
  · exact ⟨_, lay "W1PANPRE", .w1panpreC (n := 1) (int 1 (by decide +kernel)) (by decide), by decide +kernel,
      rfl, rfl, rfl, by storedH, by storedH⟩
  refine more rfl (by simp) ?_ ?_
  · exact ⟨_, lay "W1PANPRE", .w1panpreC (n := 1) (int 1 (by decide +kernel)) (by decide), by decide +kernel,
      rfl, rfl, rfl, by storedH, by storedH⟩
  refine more rfl (by simp) ?_ ?_
  · exact ⟨_, lay "W1PANPRE", .w1panpreC (n := 1) (int 1 (by decide +kernel)) (by decide), by decide +kernel,
      rfl, rfl, rfl, by storedH, by storedH⟩
  refine more rfl (by simp) ?_ ?_
  · exact ⟨_, lay "W1PANPRE", .w1panpreC (n := 1) (int 1 (by decide +kernel)) (by decide), by decide +kernel,
      rfl, rfl, rfl, by storedH, by storedH⟩
  refine more rfl (by simp) ?_ ?_
  · exact ⟨_, lay "W1PANPRE", .w1panpreC (n := 1) (int 1 (by decide +kernel)) (by decide), by decide +kernel,
      rfl, rfl, rfl, by storedH, by storedH⟩
  refine more rfl (by simp) ?_ ?_
  · exact ⟨_, lay "W1PANPRE", .w1panpreC (n := 1) (int 1 (by decide +kernel)) (by decide), by decide +kernel,
      rfl, rfl, rfl, by storedH, by storedH⟩
  refine more rfl (by simp) ?_ ?_
  · exact ⟨_, lay "W1PANPRE", .w1panpreC (n := 1) (int 1 (by decide +kernel)) (by decide), by decide +kernel,
      rfl, rfl, rfl, by storedH, by storedH⟩
  refine more rfl (by simp) ?_ ?_
  · exact ⟨_, lay "W1PANPRE", .w1panpreC (n := 1) (int 1 (by decide +kernel)) (by decide), by decide +kernel,
      rfl, rfl, rfl, by storedH, by storedH⟩
  refine more rfl (by simp) ?_ ?_
  · exact ⟨_, lay "W1PANPRE", .w1panpreC (n := 1) (int 1 (by decide +kernel)) (by decide), by decide +kernel,
      rfl, rfl, rfl, by storedH, by storedH⟩
  refine more rfl (by simp) ?_ ?_
  · exact ⟨_, lay "W1PANPRE", .w1panpreC (n := 1) (int 1 (by decide +kernel)) (by decide), by decide +kernel,
      rfl, rfl, rfl, by storedH, by storedH⟩
  refine more rfl (by simp) ?_ ?_
  · exact ⟨_, lay "W1PANPRE", .w1panpreC (n := 1) (int 1 (by decide +kernel)) (by decide), by decide +kernel,
      rfl, rfl, rfl, by storedH, by storedH⟩
  refine more rfl (by simp) ?_ ?_
  · exact ⟨_, lay "W1PANPRE", .w1panpreC (n := 1) (int 1 (by decide +kernel)) (by decide), by decide +kernel,
      rfl, rfl, rfl, by storedH, by storedH⟩
  refine more rfl (by simp) ?_ ?_
  · exact ⟨_, lay "W1PANPRE", .w1panpreC (n := 1) (int 1 (by decide +kernel)) (by decide), by decide +kernel,
      rfl, rfl, rfl, by storedH, by storedH⟩
  exact .stop trivial ⟨rfl, _, _, rfl, rfl⟩

theorem hydOnDisk : Encoded Dec.std (fun _ => false) hydFile (.unformatted (75 :: bytes hydFile)) :=
  .unformatted (encodesU (by decide +kernel))

/-- the file is superelement 5, a hydrodynamic results file (`G5.SIU`) -/
theorem hydJob : Job none (fun _ => false) (fun _ => none) hydFile hydOuts hydNames
    (.top "" "G") 5 {} "" "HYDRODYNAMIC" none where
  accepted := hydAccepted _
  sel := by decide
  gives := ⟨_, rfl, .inl ⟨rfl, rfl⟩⟩
  allows := by
    intro o ho hn
    exfalso
    revert o
    decide +kernel
  hier := trivial
  free := fun _ _ => rfl
  classified := .hydro rfl

theorem hydClean : Clean (.top "" "G") (fun _ => none) {} { g := { filetypeid := "G" } } :=
  ⟨rfl, rfl, rfl, fun _ => rfl, rfl, rfl, rfl, rfl, rfl, rfl⟩

/-- complex numbers as pairs -/
abbrev Cx := Rat × Rat

def num : PyF → Rat := Verif.Data.Load.Demo.num

def cplx (x y : PyF) : Cx := (num x, num y)

/-- number of the reference record of a direction and a frequency -/
def refNo (d w : Rat) : Rat := if d = 3 then (if w = 2 then 1 else 2) else if w = 2 then 3 else 4

/-- real and imaginary parts that single precision keeps -/
theorem pair {l : List PyF} {zs : List Cx} {x y : PyF} (hx : x.single = x) (hy : y.single = y)
    (h : Parts cplx l zs) : Parts cplx (x :: y :: l) (cplx x y :: zs) := by
  have := Parts.cons (cplx := cplx) x y h
  rwa [hx, hy] at this

theorem int {x : PyF} (n : Int) (h : x.toInt = .ok n) : HasInt x n := toInt_hasInt h

theorem grid : GridFile num hydFile [3, 1] [2, 1/2] ⟨10, 1000, 100⟩ where
  dirs_nodup := by decide +kernel
  freqs_nodup := by decide +kernel
  dirs_ne := by simp
  freqs_ne := by simp
  refs := by
    have one : ∀ (r d w : Rat), at32 num (.rat d) = d → at32 num (.rat w) = w →
      IsRefs num ⟨"WDRESREF", [.rat 10, .rat r, .rat 1, .rat 2], [], 0,
        [.rat 1, .rat r, .rat d, .rat 2, .rat r, .rat w], []⟩ ([d], [w], []) := fun r d w hd hw => by
     rw [show [d] = [at32 num (.rat d)] by rw [hd], show [w] = [at32 num (.rat w)] by rw [hw]]
     exact ⟨_, _, _, _, 1, 2, [(1, [vector [.rat r, .rat d]]), (2, [vector [.rat r, .rat w]])], rfl,
        int 1 (by decide +kernel), int 2 (by decide +kernel),
        .cons (d := [.rat r, .rat d]) (l := [.rat 2, .rat r, .rat w]) (int 1 (by decide +kernel))
          ⟨[[.rat r, .rat d]], by simp, rfl, rfl⟩ rfl
          (.cons (d := [.rat r, .rat w]) (l := []) (int 2 (by decide +kernel))
            ⟨[[.rat r, .rat w]], by simp, rfl, rfl⟩ rfl .nil),
        .given [(.rat r, .rat d)] (by simp) (by simp), .given [(.rat r, .rat w)] (by simp) (by simp),
        .absent (by simp)⟩
    exact .cons (one 1 3 2 (by decide +kernel) (by decide +kernel))
      (.cons (one 2 3 (1/2) (by decide +kernel) (by decide +kernel))
      (.cons (one 3 1 2 (by decide +kernel) (by decide +kernel))
      (.cons (one 4 1 (1/2) (by decide +kernel) (by decide +kernel)) .nil)))
  globs := ⟨[], .cons ⟨_, _, _, _, rfl, by decide +kernel, by decide +kernel,
    .inr ⟨1, _, int 1 (by decide +kernel), by decide, rfl, by decide +kernel⟩⟩ .nil⟩

theorem conds : List.Forall₂ IsBodCon (recordsOf "WBODCON" hydFile) [⟨5, 1⟩, ⟨8, 2⟩] :=
  .cons ⟨_, _, _, _, rfl, int 5 (by decide +kernel), int 1 (by decide +kernel)⟩
    (.cons ⟨_, _, _, _, rfl, int 8 (by decide +kernel), int 2 (by decide +kernel)⟩ .nil)

theorem body1 : BodyOf hydFile 1 5 := ⟨[], ⟨5, 1⟩, [⟨8, 2⟩], conds, rfl, rfl, by simp⟩

theorem body2 : BodyOf hydFile 2 8 := ⟨[⟨5, 1⟩], ⟨8, 2⟩, [], conds, rfl, rfl, by decide⟩

/-- motions: real part ten times the number of the reference, imaginary part the component -/
def motionOf (off d w : Rat) : List Cx :=
  [0, 1, 2, 3, 4, 5].map fun k : Rat => (10 * refNo d w + off, k)

def motions : List (BodyRow Cx) := [(3 : Rat), 1].flatMap fun d => [(2 : Rat), 1/2].flatMap fun w =>
  [⟨5, motionOf 0 d w⟩, ⟨8, motionOf 50 d w⟩]

theorem isMotions : Rows (IsSix cplx) hydFile "W1MOTION" motions := by
  have one : ∀ (c r x : Rat) (n : Int) (b : BodyRow Cx), n = c →
      b = ⟨n, [0, 1, 2, 3, 4, 5].map fun k : Rat => (x, k)⟩ → (PyF.rat c).toInt = .ok n →
      (PyF.rat x).single = .rat x →
      IsSix cplx ⟨"W1MOTION", [.rat 16, .rat c, .rat r, .rat 1], [], 0,
        [.rat x, .rat 0, .rat x, .rat 1, .rat x, .rat 2, .rat x, .rat 3, .rat x, .rat 4, .rat x,
         .rat 5], []⟩ b := by
    rintro c r x n _ - rfl hc hx
    exact ⟨_, _, _, _, 1, rfl, int n hc, int 1 (by decide +kernel), .complex (by decide)
      (pair hx (by decide +kernel) (pair hx (by decide +kernel) (pair hx (by decide +kernel)
      (pair hx (by decide +kernel) (pair hx (by decide +kernel) (pair hx (by decide +kernel) .nil)))))),
      rfl⟩
  refine ⟨by simp [motions], ?_⟩
  refine .cons (one 5 1 10 5 _ ?_ ?_ ?_ ?_) (.cons (one 8 1 60 8 _ ?_ ?_ ?_ ?_)
    (.cons (one 5 2 20 5 _ ?_ ?_ ?_ ?_) (.cons (one 8 2 70 8 _ ?_ ?_ ?_ ?_)
    (.cons (one 5 3 30 5 _ ?_ ?_ ?_ ?_) (.cons (one 8 3 80 8 _ ?_ ?_ ?_ ?_)
    (.cons (one 5 4 40 5 _ ?_ ?_ ?_ ?_) (.cons (one 8 4 90 8 _ ?_ ?_ ?_ ?_) .nil)))))))
  all_goals decide +kernel

/-- the motions of body 2 -/
theorem motions2 : ForBody hydFile (fun r => r.ibcond) motions 2
    ([(3 : Rat), 1].flatMap fun d => [(2 : Rat), 1/2].map fun w => ⟨8, motionOf 50 d w⟩) := by
  have := ForBody.body (cond := fun r : BodyRow Cx => r.ibcond) (rows := motions) (by decide) body2
  rwa [show motions.filter (fun r => r.ibcond = 8) = ([(3 : Rat), 1].flatMap fun d =>
    [(2 : Rat), 1/2].map fun w => ⟨8, motionOf 50 d w⟩) from by decide +kernel] at this

example := file_to_hydro hydJob hydClean 0 hydOnDisk num cplx

example := file_to_axes hydJob hydClean 0 hydOnDisk cplx grid 3

/-- component 4 of the motion of body 2 for direction 1 (index 1) and frequency 1/2 (index 1) -/
example : ∃ st' t o a, parseSource Dec.std 0 none { g := { filetypeid := "G" } }
    (.unformatted (75 :: bytes hydFile)) = .ok st' ∧
    loadHydro num cplx st'.h5 ((Place.top "" "G").path 5) = .ok t ∧ hydroInit 3 t = .ok o ∧
    getMotionRaos o 2 = .ok a ∧ a.shape = [6, 2, 2] ∧ a.get [4, 1, 1] = (90, 4) := by
  obtain ⟨st', t, o, h1, h2, h3, h4, -⟩ :=
    file_to_raos hydJob hydClean 0 hydOnDisk cplx grid 3
  obtain ⟨a, h5, h6, h7⟩ := h4 _ 2 _ (motionOf 50) isMotions motions2
    ⟨fun d _ w _ => rfl, by decide +kernel⟩
  exact ⟨st', t, o, a, h1, h2, h3, h5, h6, h7 4 1 1 1 (1/2) _ rfl rfl (by decide +kernel)⟩

/-- section forces -/
def forceOf (_ : SectionRow Rat) (d w : Rat) : List Cx :=
  [0, 1, 2, 3, 4, 5].map fun k : Rat => (k, 10 * refNo d w)

def sect : SectionRow Rat := ⟨1, 1, 2, 11, [0, 0, 0], [1, 0, 0], [0, 1, 0]⟩

theorem isSect : Rows (IsSection num) hydFile "WSECTION" [sect] :=
  ⟨by simp, .cons ⟨_, _, _, _, _, _, _, _, _, _, _, _, _, _, rfl, rfl, int 1 (by decide +kernel),
    int 1 (by decide +kernel), int 2 (by decide +kernel), int 11 (by decide +kernel),
    by decide +kernel, by decide +kernel, by decide +kernel⟩
    .nil⟩

def forces : List (BodyRow Cx) := [(3 : Rat), 1].flatMap fun d => [(2 : Rat), 1/2].map fun w =>
  ⟨5, forceOf sect d w⟩

theorem isForces : Rows (IsSectForce cplx) hydFile "W1SFORCE" forces := by
  have one : ∀ (r x : Rat) (b : BodyRow Cx),
      b = ⟨5, [0, 1, 2, 3, 4, 5].map fun k : Rat => (k, x)⟩ → (PyF.rat x).single = .rat x →
      IsSectForce cplx ⟨"W1SFORCE", [.rat 17, .rat 5, .rat 1, .rat r], [], 0,
        [.rat 1, .rat 0, .rat x, .rat 1, .rat x, .rat 2, .rat x, .rat 3, .rat x, .rat 4, .rat x,
         .rat 5, .rat x], []⟩ b := by
    rintro r x _ rfl hx
    exact ⟨_, _, _, _, _, _, 1, rfl, rfl, int 5 (by decide +kernel), int 1 (by decide +kernel),
      .complex (by decide)
      (pair (by decide +kernel) hx (pair (by decide +kernel) hx (pair (by decide +kernel) hx
      (pair (by decide +kernel) hx (pair (by decide +kernel) hx (pair (by decide +kernel) hx .nil)))))),
      rfl⟩
  refine ⟨by simp [forces], .cons (one 1 10 _ ?_ ?_) (.cons (one 2 20 _ ?_ ?_)
    (.cons (one 3 30 _ ?_ ?_) (.cons (one 4 40 _ ?_ ?_) .nil)))⟩
  all_goals decide +kernel

example := file_to_section_forces hydJob hydClean 0 hydOnDisk cplx grid 3 isSect isForces
  .all (row := forceOf) (fun s _ d _ w _ => rfl) (by decide +kernel)

/-- fluid kinematics at two points -/
def fluidOf (d w : Rat) (p : PointRow Rat) : FluidRow Cx :=
  ⟨(10 * refNo d w, p.ifkpnt), [(refNo d w, 1), (refNo d w, 2), (refNo d w, 3)]⟩

def points : List (PointRow Rat) := [⟨1, [10, 0, -1]⟩, ⟨2, [20, 0, -1]⟩]

theorem isPoints : Rows (IsPoint num) hydFile "WFKPOINT" points :=
  ⟨by simp [points], .cons ⟨_, _, _, _, _, rfl, rfl, int 1 (by decide +kernel), by decide +kernel⟩
    (.cons ⟨_, _, _, _, _, rfl, rfl, int 2 (by decide +kernel), by decide +kernel⟩ .nil)⟩

def fluids : List (FluidRow Cx) := [(3 : Rat), 1].flatMap fun d => [(2 : Rat), 1/2].flatMap fun w =>
  points.map fun p => fluidOf d w p

theorem isFluids : Rows (IsFluid cplx) hydFile "WFLUIDKN" fluids := by
  have one : ∀ (r k x : Rat) (b : FluidRow Cx), b = ⟨(x, k), [(r, 1), (r, 2), (r, 3)]⟩ →
      (PyF.rat x).single = .rat x → (PyF.rat k).single = .rat k → (PyF.rat r).single = .rat r →
      IsFluid cplx ⟨"WFLUIDKN", [.rat 12, .rat r, .rat k, .rat 1], [], 0,
        [.rat x, .rat k, .rat r, .rat 1, .rat r, .rat 2, .rat r, .rat 3], []⟩ b := by
    rintro r k x _ rfl hx hk hr
    exact ⟨_, _, _, _, 1, rfl, int 1 (by decide +kernel), .complex (by decide)
      (pair hx hk (pair hr (by decide +kernel) (pair hr (by decide +kernel)
        (pair hr (by decide +kernel) .nil)))), rfl⟩
  refine ⟨by simp [fluids, points], ?_⟩
  refine .cons (one 1 1 10 _ ?_ ?_ ?_ ?_) (.cons (one 1 2 10 _ ?_ ?_ ?_ ?_) (.cons (one 2 1 20 _ ?_ ?_ ?_ ?_)
    (.cons (one 2 2 20 _ ?_ ?_ ?_ ?_) (.cons (one 3 1 30 _ ?_ ?_ ?_ ?_) (.cons (one 3 2 30 _ ?_ ?_ ?_ ?_)
    (.cons (one 4 1 40 _ ?_ ?_ ?_ ?_) (.cons (one 4 2 40 _ ?_ ?_ ?_ ?_) .nil)))))))
  all_goals decide +kernel

example := file_to_kinematics hydJob hydClean 0 hydOnDisk cplx grid 3 isPoints isFluids
  (row := fluidOf) ⟨fun d _ w _ p _ => rfl, by decide +kernel⟩

/-- panel pressures -/
def panelOf (d w : Rat) (s p : Int) : PanelRow Cx := ⟨5, s, (10 * refNo d w, s), p⟩

def panels : List (PanelRow Cx) := [(3 : Rat), 1].flatMap fun d => [(2 : Rat), 1/2].flatMap fun w =>
  [(1 : Int), 2].flatMap fun s => [(4 : Int), 7].map fun p => panelOf d w s p

theorem isPanels : Rows (IsPanel cplx) hydFile "W1PANPRE" panels := by
  have one : ∀ (r x s p : Rat) (m n : Int) (b : PanelRow Cx), (PyF.rat s).toInt = .ok m →
      (PyF.rat p).toInt = .ok n → b = ⟨5, m, (x, s), n⟩ →
      (PyF.rat x).single = .rat x → (PyF.rat s).single = .rat s →
      IsPanel cplx ⟨"W1PANPRE", [.rat 10, .rat 5, .rat r, .rat p], [], 0,
        [.rat s, .rat 1, .rat x, .rat s, .rat p, .rat 0], []⟩ b := by
    rintro r x s p m n _ hs hp rfl hx hs'
    exact ⟨_, _, _, _, _, _, [.rat x, .rat s], _, _, 1, rfl, rfl, int 5 (by decide +kernel),
      int m hs, int 1 (by decide +kernel), .complex (by decide) (pair hx hs' .nil), int n hp⟩
  refine ⟨by simp [panels], ?_⟩
  refine .cons (one 1 10 1 4 1 4 _ ?_ ?_ ?_ ?_ ?_) (.cons (one 1 10 1 7 1 7 _ ?_ ?_ ?_ ?_ ?_)
    (.cons (one 1 10 2 4 2 4 _ ?_ ?_ ?_ ?_ ?_) (.cons (one 1 10 2 7 2 7 _ ?_ ?_ ?_ ?_ ?_)
    (.cons (one 2 20 1 4 1 4 _ ?_ ?_ ?_ ?_ ?_) (.cons (one 2 20 1 7 1 7 _ ?_ ?_ ?_ ?_ ?_)
    (.cons (one 2 20 2 4 2 4 _ ?_ ?_ ?_ ?_ ?_) (.cons (one 2 20 2 7 2 7 _ ?_ ?_ ?_ ?_ ?_)
    (.cons (one 3 30 1 4 1 4 _ ?_ ?_ ?_ ?_ ?_) (.cons (one 3 30 1 7 1 7 _ ?_ ?_ ?_ ?_ ?_)
    (.cons (one 3 30 2 4 2 4 _ ?_ ?_ ?_ ?_ ?_) (.cons (one 3 30 2 7 2 7 _ ?_ ?_ ?_ ?_ ?_)
    (.cons (one 4 40 1 4 1 4 _ ?_ ?_ ?_ ?_ ?_) (.cons (one 4 40 1 7 1 7 _ ?_ ?_ ?_ ?_ ?_)
    (.cons (one 4 40 2 4 2 4 _ ?_ ?_ ?_ ?_ ?_) (.cons (one 4 40 2 7 2 7 _ ?_ ?_ ?_ ?_ ?_)
      .nil)))))))))))))))
  all_goals decide +kernel

example := file_to_pressures hydJob hydClean 0 hydOnDisk cplx grid 3 isPanels .all
  (S := [1, 2]) (P := [4, 7]) (row := panelOf)
  (by exact ⟨fun d _ w _ s _ p _ => ⟨rfl, rfl⟩, by decide +kernel⟩) (by decide) (by decide) (by simp)
  (by simp)

/-- properties of body 1 -/
def bodyRow : BodyPropRow Rat where
  nfield := 32
  ibcond := 5
  props := List.zipWith (fun n y => (n, PropVal.real [[y]])) propNames
    [20, 21, 22, 30, 31, 32, 33, 34, 35, 36, 38, 39, 40, 41] ++
      [("t", .real [[1, 0, 0, 0], [0, 1, 0, 0], [0, 0, 1, 0], [7, 0, 0, 1]])]

theorem isBodyRow : Rows (IsBody num) hydFile "WBODY" ([] ++ bodyRow :: []) :=
  ⟨by simp, .cons ⟨_, _, _, _, [.rat 22, .rat 30, .rat 31, .rat 32, .rat 33, .rat 34, .rat 35,
      .rat 36, .rat 38, .rat 39, .rat 40, .rat 41], [.rat 1, .rat 0, .rat 0, .rat 0, .rat 0, .rat 1,
      .rat 0, .rat 0, .rat 0, .rat 0, .rat 1, .rat 0, .rat 7, .rat 0, .rat 0, .rat 1],
      [[1, 0, 0, 0], [0, 1, 0, 0], [0, 0, 1, 0], [7, 0, 0, 1]], rfl, rfl, rfl,
      int 32 (by decide +kernel), int 5 (by decide +kernel), ⟨rfl, by simp, by decide +kernel⟩,
      by decide +kernel⟩ .nil⟩

example := file_to_body hydJob hydClean 0 hydOnDisk cplx grid 3 isBodyRow body1 rfl
  (by simp)

/-- matrices -/
def matOf (x : Rat) : List (List Rat) := [0, 1, 2, 3, 4, 5].map fun i : Rat => [x, i, i, i, i, i]

theorem isMats : Rows (IsMat num) hydFile "W1MATRIX"
    [⟨5, 5, 31, matOf 1⟩, ⟨5, 5, 12, matOf 2⟩, ⟨5, 5, 12, matOf 3⟩] :=
  ⟨by simp, .cons ⟨_, _, _, _, _, _, _, rfl, rfl, int 5 (by decide +kernel),
      int 5 (by decide +kernel), int 31 (by decide +kernel), rfl, by simp [matOf], by decide +kernel⟩
    (.cons ⟨_, _, _, _, _, _, _, rfl, rfl, int 5 (by decide +kernel), int 5 (by decide +kernel),
      int 12 (by decide +kernel), rfl, by simp [matOf], by decide +kernel⟩
    (.cons ⟨_, _, _, _, _, _, _, rfl, rfl, int 5 (by decide +kernel), int 5 (by decide +kernel),
      int 12 (by decide +kernel), rfl, by simp [matOf], by decide +kernel⟩ .nil))⟩

example := file_to_matrix hydJob hydClean 0 hydOnDisk cplx grid 3 isMats body1 body1

end Verif.Data.Load.HydroDemo
