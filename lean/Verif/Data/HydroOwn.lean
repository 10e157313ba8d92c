import Verif.Data.Hydro
/-!
# Model of `/repo/freesif/data/hydrodata.py`: whose arrays the getters give

`get_angular_freqs`, `get_periods`, `get_timesteps` and `get_directions('radians')` return the
attribute of the object itself (hydrodata.py:125, 131, 141, 149), not a copy; the arrays of all
other getters are new ones, read from the file or computed.  The caller can write into any array
it was given.
-/

namespace Verif.Data
open Verif

/-- the arrays that are attributes of the object -/
inductive Own where
  | freqs
  | periods
  | dirs
  | times
  deriving DecidableEq, Repr

/-- an array the caller was given: one of the object's, or a new one (by number) -/
inductive Handle where
  | own (o : Own)
  | fresh (n : Nat)
  deriving DecidableEq, Repr

section
variable {K V : Type} [Field K]

/-- the object and the new arrays given so far -/
structure Held (K V : Type) where
  obj : HydroObj K V
  news : List (List K)

/-- the attribute -/
def HydroObj.array (h : HydroObj K V) : Own → List K
  | .freqs => h.angfreqs
  | .periods => h.periods
  | .dirs => h.directions
  | .times => h.timesteps

/-- the object with other contents of the attribute -/
def HydroObj.put (h : HydroObj K V) (l : List K) : Own → HydroObj K V
  | .freqs => { h with angfreqs := l }
  | .periods => { h with periods := l }
  | .dirs => { h with directions := l }
  | .times => { h with timesteps := l }

/-- the contents of an array -/
def Held.contents (s : Held K V) : Handle → List K
  | .own o => s.obj.array o
  | .fresh n => s.news.getD n []

/-- what the caller does -/
inductive Deed (K : Type) where
  | askFreqs
  | askPeriods
  | askDirections (unit : String)
  | askTimesteps
  | write (a : Handle) (i : Nat) (v : K)

/-- hydrodata.py:121-149 with the array that is returned; `write` is `a[i] = v`, IndexError if
there is no such position.  A write gives no array (`none`). -/
def Deed.run (pi : K) : Deed K → Held K V → Held K V × Except Err (Option Handle)
  | .askFreqs, s => (s, (getAngularFreqs s.obj).map fun _ => some (.own .freqs))
  | .askPeriods, s => (s, (getPeriods s.obj).map fun _ => some (.own .periods))
  | .askTimesteps, s => (s, (getTimesteps s.obj).map fun _ => some (.own .times))
  | .askDirections unit, s =>
    match getDirections pi s.obj unit with
    | .error e => (s, .error e)
    | .ok l =>
      if unit = "radians" then (s, .ok (some (.own .dirs)))
      else ({ s with news := s.news ++ [l] }, .ok (some (.fresh s.news.length)))
  | .write a i v, s =>
    if i < (s.contents a).length then
      match a with
      | .own o => ({ s with obj := s.obj.put ((s.obj.array o).set i v) o }, .ok none)
      | .fresh n => ({ s with news := s.news.modify n fun l => l.set i v }, .ok none)
    else (s, .error .indexError)

/-- several deeds; exceptions are caught -/
def deeds (pi : K) : Held K V → List (Deed K) → Held K V
  | s, [] => s
  | s, x :: xs => deeds pi (x.run pi s).1 xs

end
end Verif.Data
