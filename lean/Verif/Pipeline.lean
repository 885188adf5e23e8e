import Verif.GMM
import Verif.Models.BJ08
import Verif.Models.Kishida

/-!
# From a model to a conditional mean spectrum

What the documentation (docs/models.rst lines 380-398) has in mind: the arrays a ground-motion model offers are passed
to `calc_cond_mean_spectrum` (or, with several targets, to `calc_cond_mean_spectrum_vector`).
-/

namespace Pipeline

/-- the three arrays as points.  (Values only: used where all of them are finite.) -/
noncomputable def points (ps : List ℚ) (as ss : List F) : List BJ08.Point :=
  List.zipWith (fun (p : ℚ) (q : F × F) => ⟨(p : ℝ), (F.log q.1).val, q.2.val⟩) ps (List.zip as ss)

/-- `calc_cond_mean_spectrum(m.periods, np.log(m.spec_accels), m.ln_stds, T, x)`
(model.py lines 291-307, baker_jayaram_2008.py lines 57-99) -/
noncomputable def cms (C : GmmClass) (o : GmmOut) (T x : ℝ) : Py (List (F × F)) := do
  let ps ← Gmm.periods C
  let as ← Gmm.specAccels C o
  let ss ← Gmm.lnStds C o
  BJ08.calcCms (points ps as ss) T x

/-- `calc_cond_mean_spectrum_vector(m.periods, np.log(m.spec_accels), m.ln_stds, target)`, `target` a masked array of the
same length (`none`: masked) (model.py lines 291-307, kishida_2017.py lines 9-96) -/
noncomputable def cmsv (C : GmmClass) (o : GmmOut) (target : List (Option ℝ)) : Py (List (F × F)) := do
  let ps ← Gmm.periods C
  let as ← Gmm.specAccels C o
  let ss ← Gmm.lnStds C o
  Kishida.calcCmsv (List.zipWith (fun (p : BJ08.Point) c => ⟨p, c⟩) (points ps as ss) target)

end Pipeline
