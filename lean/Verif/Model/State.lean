import Verif.Model.Py
import Verif.Model.Aero
import Mathlib.Data.List.Dedup

/-!
# Flight states

Model of `FlightState` (`/repo/src/lib/pytornado/objects/state.py`) and of the native state file
(`fileio/native/state.py`).  Simplifications: floating-point numbers are exact or "not finite";
the class `Atmosphere` of the external package `ambiance` is a parameter, applied to each altitude;
nested lists are not modelled.
-/

namespace Verif

/-- A floating-point number; `nonfin` stands for NaN and infinities. -/
inductive Flt (K : Type*)
  | fin (x : K)
  | nonfin
  deriving DecidableEq, Repr

/-- Product of floating-point numbers. -/
def Flt.mul {K : Type*} [Mul K] : Flt K → Flt K → Flt K
  | .fin x, .fin y => .fin (x * y)
  | _, _ => .nonfin

/-- A Python value inside a state dictionary. -/
inductive Val (K : Type*)
  /-- `int`, `float` or `bool` -/
  | num (f : Flt K)
  /-- `None` -/
  | none
  /-- a string, with the number it denotes, if any -/
  | text (parsed : Option (Flt K))
  /-- anything else -/
  | obj
  deriving DecidableEq, Repr

/-- A value of the dictionary: a list or anything else. -/
inductive Arg (K : Type*)
  | scalar (v : Val K)
  | list (l : List (Val K))
  deriving DecidableEq, Repr

/-- `STATE_ALL_PARAMS` (`state.py:50-60`). -/
def stateAllParams : List String :=
  ["airspeed", "alpha", "altitude", "beta", "density", "mach", "rate_P", "rate_Q", "rate_R"]

/-- `STATE_PRIMARY_PARAMS` (`state.py:63-71`). -/
def statePrimaryParams : List String :=
  ["airspeed", "alpha", "beta", "density", "rate_P", "rate_Q", "rate_R"]

/-- The dictionary `self.aero`: `none` for a missing key or `None`. -/
abbrev Store (K : Type*) := String → Option (List (Val K))

section
variable {K : Type*}

/-- `self.aero` after `__init__` (`state.py:124-126`). -/
def Store.fresh : Store K := fun _ => none

/-- `value = [value]` (`state.py:162-163`). -/
def Arg.toList : Arg K → List (Val K)
  | .scalar v => [v]
  | .list l => l

/-- `isinstance(value, (int, float))`. -/
def Val.isNum : Val K → Bool
  | .num _ => true
  | _ => false

/-- Conversion of one element by `np.array(…, dtype=float)`. -/
def Val.toFloat : Val K → Except PyErr (Val K)
  | .num f => .ok (.num f)
  | .none => .ok (.num .nonfin)
  | .text (Option.some f) => .ok (.num f)
  | .text Option.none => .error .valueError
  | .obj => .error .typeError

/-- The loop `for key, value in aero.items()` (`state.py:161-166`): new store and the lengths met. -/
def storeItems : Store K → List ℕ → List (String × Arg K) → Store K × List ℕ
  | σ, lens, [] => (σ, lens)
  | σ, lens, (key, value) :: rest =>
    storeItems (Function.update σ key (some value.toList)) (value.toList.length :: lens) rest

/-- `is_input[prop]` (`state.py:182-186`). -/
def Store.isInput (σ : Store K) (prop : String) : Bool :=
  match σ prop with
  | none => false
  | some l => l.all Val.isNum

/-- `input_props in valid_prop_pairs` (`state.py:174-190`), written out for the four flags
airspeed, mach, density, altitude. -/
def validCombination (a m d h : Bool) : Bool :=
  (a && d && !m && !h) || (a && h && !m && !d) || (m && h && !a && !d)

/-- "Only numpy float arrays from now on" (`state.py:201-203`). -/
def convertAll : List String → Store K → Except PyErr (Store K)
  | [], σ => .ok σ
  | p :: rest, σ =>
    match σ p with
    | none => convertAll rest σ
    | some l =>
      match mapE Val.toFloat l with
      | .error e => .error e
      | .ok l' => convertAll rest (Function.update σ p (some l'))

/-- The number in a converted element. -/
def Val.flt : Val K → Flt K
  | .num f => f
  | _ => .nonfin

/-- Density and speed of sound at an altitude; `none`: the constructor raises ValueError. -/
abbrev Atm (K : Type*) := Flt K → Option (Flt K × Flt K)

/-- `Atmosphere(altitude)` for one element. -/
def Atm.one (atm : Atm K) (v : Val K) : Except PyErr (Flt K × Flt K) :=
  match atm v.flt with
  | none => .error .valueError
  | some r => .ok r

/-- `Atmosphere(altitude)` for an array. -/
def Atm.apply (atm : Atm K) : List (Val K) → Except PyErr (List (Flt K × Flt K)) := mapE atm.one

/-- A flight state object. -/
structure FlightSt (K : Type*) where
  aero : Store K
  /-- `num_apm_entries` -/
  num : ℕ

/-- An element of `range_is_not_ok` (`state.py:222`): `(x < -90) & (x > 90)`.  Both comparisons
are false for NaN; for infinities at most one holds. -/
def Val.outside [LinearOrder K] [IntCast K] (v : Val K) : Bool :=
  match v.flt with
  | .fin x => decide (x < ((-90 : ℤ) : K)) && decide (x > ((90 : ℤ) : K))
  | .nonfin => false

/-- `check_values` (`state.py:217-224`): comparing `None` raises TypeError. -/
def checkValues [LinearOrder K] [IntCast K] (σ : Store K) : Except PyErr Unit :=
  match σ "alpha" with
  | none => .error .typeError
  | some l =>
    if l.any Val.outside then .error .valueError
    else match σ "beta" with
      | none => .error .typeError
      | some l => if l.any Val.outside then .error .valueError else .ok ()

variable [Mul K] [LinearOrder K] [IntCast K]

/-- "Compute airspeed and density if necessary" (`state.py:205-215`).  `inA` etc. are the flags
determined before the conversion.  The variables `density` and `speed_of_sound` are unbound without
altitude. -/
def computeMissing (atm : Atm K) (inM inD inH : Bool) (σ : Store K) : Except PyErr (Store K) :=
  let atmosphere : Except PyErr (Option (List (Flt K × Flt K))) :=
    if inH then
      match σ "altitude" with
      | none => .error .typeError
      | some l => match atm.apply l with
        | .error e => .error e
        | .ok r => .ok (some r)
    else .ok none
  match atmosphere with
  | .error e => .error e
  | .ok r? =>
    let withDensity : Except PyErr (Store K) :=
      if !inD then
        match r? with
        | none => .error .unboundLocal
        | some r => .ok (Function.update σ "density" (some (r.map fun t => Val.num t.1)))
      else .ok σ
    match withDensity with
    | .error e => .error e
    | .ok σ1 =>
      if inM then
        match r?, σ1 "mach" with
        | some r, some m => .ok (Function.update σ1 "airspeed"
            (some (List.zipWith (fun x t => Val.num (x.flt.mul t.2)) m r)))
        | none, _ => .error .unboundLocal
        | _, none => .error .typeError
      else .ok σ1

/-- `update_from_dict` (`state.py:154-215`). -/
def updateFromDict (atm : Atm K) (σ0 : Store K) (d : List (String × Arg K)) :
    Except PyErr (FlightSt K) :=
  let (σ, lens) := storeItems σ0 [] d
  match lens.dedup with
  | [] => .error .indexError
  | _ :: _ :: _ => .error .valueError
  | [n] =>
    let inA := σ.isInput "airspeed"
    let inM := σ.isInput "mach"
    let inD := σ.isInput "density"
    let inH := σ.isInput "altitude"
    if validCombination inA inM inD inH then
      match convertAll stateAllParams σ with
      | .error e => .error e
      | .ok σ1 =>
        match computeMissing atm inM inD inH σ1 with
        | .error e => .error e
        | .ok σ2 =>
          match checkValues σ2 with
          | .error e => .error e
          | .ok _ => .ok ⟨σ2, n⟩
    else .error .valueError

end

/-- `CurrentState` (`state.py:83-98`): the dictionary `aero` of the primary parameters and the
arguments airspeed, alpha, beta of which `free_stream_velocity_vector` is computed (see
`pyFreestream`). -/
structure CurSt (K : Type*) where
  aero : String → Option (Flt K)
  fsv : Flt K × Flt K × Flt K

section
variable {K : Type*}

/-- `self.aero[param][i]`. -/
def Store.entry (σ : Store K) (param : String) (i : ℕ) : Except PyErr (Flt K) :=
  match σ param with
  | none => .error .typeError
  | some l => match l[i]? with
    | none => .error .indexError
    | some v => .ok v.flt

/-- The loop over `STATE_PRIMARY_PARAMS` (`state.py:236-238`). -/
def primaryAero (σ : Store K) (i : ℕ) : List String → (String → Option (Flt K)) →
    Except PyErr (String → Option (Flt K))
  | [], acc => .ok acc
  | p :: rest, acc =>
    match σ.entry p i with
    | .error e => .error e
    | .ok f => primaryAero σ i rest (Function.update acc p (some f))

/-- One pass of `iter_states` (`state.py:231-242`), with `free_stream_velocity_vector`
(`state.py:137-152`). -/
def FlightSt.current (s : FlightSt K) (i : ℕ) : Except PyErr (CurSt K) :=
  match primaryAero s.aero i statePrimaryParams (fun _ => none) with
  | .error e => .error e
  | .ok aero =>
    match s.aero.entry "alpha" i, s.aero.entry "beta" i, s.aero.entry "airspeed" i with
    | .ok a, .ok b, .ok v => .ok ⟨aero, (v, a, b)⟩
    | .error e, _, _ => .error e
    | _, .error e, _ => .error e
    | _, _, .error e => .error e

/-- `iter_states` (`state.py:226-242`), run to its end. -/
def FlightSt.iterStates (s : FlightSt K) : Except PyErr (List (CurSt K)) :=
  mapE s.current (List.range s.num)

/-- What `save` writes and `load` reads back (`fileio/native/state.py:42-85`): every key of
`state.aero` (`STATE_ALL_PARAMS`, then keys the user added), `None` as `null`, arrays as lists of
numbers; NaN is written and read as a `float`. -/
def FlightSt.saved (s : FlightSt K) (extra : List String) : List (String × Arg K) :=
  (stateAllParams ++ extra).map fun p => (p, match s.aero p with
    | none => .scalar .none
    | some l => .list l)

end

/-- The numbers of a state passed to the native code (`c_vlm.cpp`, keys of `statestruct`). -/
def CurSt.toFlow (c : CurSt ℝ) : Option FlowState :=
  match c.aero "airspeed", c.aero "density", c.aero "alpha", c.aero "beta", c.aero "rate_P",
    c.aero "rate_Q", c.aero "rate_R" with
  | some (.fin v), some (.fin rho), some (.fin a), some (.fin b), some (.fin p), some (.fin q),
    some (.fin r) => some ⟨v, rho, a, b, p, q, r⟩
  | _, _, _, _, _, _, _ => none

end Verif
