import Verif.Model.Native
import Verif.Model.Program

/-!
# Whole projects with the native code in them
-/

namespace Verif

/-- `standard_run` (`run.py:84-182`): loading as in `runProject`, then the run on Python objects and flat
arrays (`nStandardRun`).  With `strict` (not in the code) refused calls are reported, see `nCall`. -/
noncomputable def nRunProject (strict : Bool) (W : World) (P : Project) :
    Except (NStop × Files) NRunOut :=
  match loadProject W P with
  | .error e => .error (.stop (.raised e), [])
  | .ok x => nStandardRun strict (x.env W P) x.aircraft.toP x.state

end Verif
