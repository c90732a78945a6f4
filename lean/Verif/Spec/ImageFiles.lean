import Verif.Model.ImageFiles
/-! # Specification for image-file series: the frames a user expects, in order -/
namespace Hexrd.ImageFiles

/-- Specification: the usable frames of the files, in order. From a file with `n`
images the first `empty` are skipped and at most `maxFile` (if positive) used. -/
def usable (o : Opts) (files : List Nat) : List (Nat × Nat) :=
  files.zipIdx.flatMap fun p =>
    (List.range (if o.maxFile = 0 then p.1 - o.empty else min o.maxFile (p.1 - o.empty))).map
      fun k => (p.2, o.empty + k)

/-- Specification: the frames the series serves, limited by `maxTot` if positive. -/
def served (o : Opts) (files : List Nat) : List (Nat × Nat) :=
  if o.maxTot > 0 then (usable o files).take o.maxTot else usable o files

end Hexrd.ImageFiles
