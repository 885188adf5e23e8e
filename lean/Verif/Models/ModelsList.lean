import Verif.Models.AGA16
import Verif.Models.AB06
import Verif.Models.AKB14
import Verif.Models.ASK14
import Verif.Models.BA19
import Verif.Models.BSSA14
import Verif.Models.C03
import Verif.Models.CB14
import Verif.Models.CY14
import Verif.Models.DBC14
import Verif.Models.Durations
import Verif.Models.GA11
import Verif.Models.I14
import Verif.Models.Pea11
import Verif.Models.TP05

/-! # `pygmm.models`: src/pygmm/__init__.py

The list a program walks through to evaluate every model on one scenario. -/

namespace PyGmm
noncomputable section

/-- `cls(scenario)`: whether the call returns, the instance being dropped -/
def construct {Out : Type} (C : ModelClass Out) (s : Scenario) : Py Unit := do
  let _ ← C.new s
  pure ()

/-- stafford_2017.py lines 12-355: `Stafford2017` defines no `__init__` and has only `object` above
it, so a call with an argument raises `TypeError` -/
def stafford (_ : Scenario) : Py Unit := Py.raise .typeError

/-- src/pygmm/__init__.py lines 75-94: `models`, each entry with its class's `__name__` and the
call `cls(scenario)` (with the default of `scale_atten`, coppersmith_bommer_2014.py line 51) -/
def models : List (String × (Scenario → Py Unit)) :=
  [("AbrahamsonSilva1996", construct AS96.cls),
   ("AbrahamsonSilvaKamai2014", construct ASK14.cls),
   ("AfshariStewart2016", construct AS16.cls),
   ("AkkarSandikkayaBommer2014", construct AKB14.cls),
   ("AtkinsonBoore2006", construct AB06.cls),
   ("BaylessAbrahamson2019", construct BA19.cls),
   ("BooreStewartSeyhanAtkinson2014", construct BSSA14.cls),
   ("Campbell2003", construct C03.cls),
   ("CampbellBozorgnia2014", construct CB14.cls),
   ("ChiouYoungs2014", construct CY14.cls),
   ("CoppersmithBommer2014", construct (CoppersmithBommer.cls 1)),
   ("DerrasBardCotton2014", construct DBC14.cls),
   ("GulerceAbrahamson2011", construct GA11.cls),
   ("KemptonStewart2006", construct KS06.cls),
   ("Idriss2014", construct I14.cls),
   ("PezeshkZandiehTavakoli2011", construct Pea11.cls),
   ("TavakoliPezeshk05", construct TP05.cls),
   ("Stafford2017", stafford)]

/-- running `for m in models: m(s)` up to the first exception: how many calls returned -/
def runAll (s : Scenario) : List (String × (Scenario → Py Unit)) → ℕ
  | [] => 0
  | e :: l => match (e.2 s).res with
    | .ok _ => runAll s l + 1
    | .error _ => 0

end
end PyGmm
