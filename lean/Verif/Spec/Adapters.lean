import Verif.Model.Adapters
/-!
# What series of images are expected to do
-/
namespace Hexrd.Adapters.Spec
open Hexrd.Adapters

/-- The last value in a history of options that was one of the three names, or the one before all of them. -/
def lastSetting (before : Setting) : List (String × OptVal) → Setting
  | [] => before
  | ("threshold_setting", .text "threshold_1") :: rest => lastSetting .one rest
  | ("threshold_setting", .text "threshold_2") :: rest => lastSetting .two rest
  | ("threshold_setting", .text "man_diff") :: rest => lastSetting .diff rest
  | _ :: rest => lastSetting before rest

/-- The last number given for the multiplier in a history of options, or the one before all of them. -/
def lastMultiplier (before : ℚ) : List (String × OptVal) → ℚ
  | [] => before
  | ("multiplier", .num x) :: rest => lastMultiplier x rest
  | _ :: rest => lastMultiplier before rest

/-- What the documentation says a value of the metadata becomes: a trigger for the array in a file becomes that array, and
any other value stays. -/
inductive Becomes {α : Type} (files : Text → Option α) : Val α → Val α → Prop
  | value (n : Nat) : Becomes files (.value n) (.value n)
  | arr (a : α) : Becomes files (.arr a) (.arr a)
  | plain (t w : Text) (ws : List Text) : words t = w :: ws → w ≠ "!".toList ∨ ws = [] → t ≠ "++np.array".toList →
      Becomes files (.text t) (.text t)
  | loaded (t f : Text) (a : α) : words t = ["!".toList, "load-numpy-array".toList, f] → files f = some a →
      Becomes files (.text t) (.arr a)

end Hexrd.Adapters.Spec
