/-
Vocabulary for the statements about processing/track.py executed from its text.
-/
import Verif.Spec.SourceTrack

set_option autoImplicit false

namespace Melodia

open Melodia.Python

/-- The variables of a user's program that calls `randomize_velocities`: the function, the track and the options given. -/
def randomVars (a : Nat) (lo hi mean var : Option PyFloat) : List (String × Val) :=
  [("randomize_velocities", .func "melodia.processing.track" "randomize_velocities"), ("t", .ref a)] ++
    (lo.map (fun x => ("minimum", Val.float x))).toList ++ (hi.map (fun x => ("maximum", Val.float x))).toList ++
    (mean.map (fun x => ("mean", Val.float x))).toList ++ (var.map (fun x => ("variance", Val.float x))).toList

/-- The ways to call `randomize_velocities`: minimum, maximum, mean and variance, the values of the variables and the
expression. Any of the four may be given by keyword, the others have the values 0.5, 1.0, 0.75 and the float closest to 0.01;
or all are given by position. -/
inductive RandomCall (a : Nat) : PyFloat → PyFloat → PyFloat → PyFloat → List (String × Val) → Expr → Prop
  | kw (lo hi mean var : Option PyFloat) : RandomCall a (lo.getD (.fin (1 / 2))) (hi.getD (.fin 1)) (mean.getD (.fin (3 / 4)))
      (var.getD (.fin (5764607523034235 / 576460752303423488))) (randomVars a lo hi mean var)
      (.call (.name "randomize_velocities") (.name "t" :: ((randomVars a lo hi mean var).drop 2).map (fun o => .name o.1))
        (((randomVars a lo hi mean var).drop 2).map Prod.fst))
  | all (lo hi mean var : PyFloat) : RandomCall a lo hi mean var (randomVars a (some lo) (some hi) (some mean) (some var))
      (callE "randomize_velocities" ["t", "minimum", "maximum", "mean", "variance"])

end Melodia
