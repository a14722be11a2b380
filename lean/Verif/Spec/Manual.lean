import Verif.Model.Main

/-!
# The options that the manual pages document (`/repo/apps/*/*.1.md`)
-/

namespace Spoc.Spec.Manual

open Main

/-- An option as the manual shows it: `--name=…, -c …`, or without argument, or without letter. -/
structure Doc where
  name : String
  letter : Option Char
  hasArg : Bool
  deriving DecidableEq, Repr

/-- An option without argument. -/
def flag (name : String) (c : Char) : Doc := ⟨name, some c, false⟩

/-- An option with an argument. -/
def opt (name : String) (c : Char) : Doc := ⟨name, some c, true⟩

/-- A command without argument, that has no letter. -/
def cmd (name : String) : Doc := ⟨name, none, false⟩

/-- A command or option with an argument, that has no letter. -/
def cmdArg (name : String) : Doc := ⟨name, none, true⟩

/-- The options of every application (for example `/repo/apps/compress/compress.1.md` lines 19-26). -/
def common : List Doc := [flag "help" 'h', flag "verbose" 'v', flag "version" 'e']

/-- The documented options, as the manual pages have them:
`/repo/apps/compress/compress.1.md` lines 19-26, `/repo/apps/decompress/decompress.1.md` lines 19-26, `/repo/apps/diff/diff.1.md` lines
20-41, `/repo/apps/filter/filter.1.md` lines 19-68, `/repo/apps/info/info.1.md` lines 51-79, `/repo/apps/merge/merge.1.md` lines 23-38,
`/repo/apps/srs/srs.1.md` lines 26-36, `/repo/apps/tile/tile.1.md` lines 45-79, `/repo/apps/tool/tool.1.md` lines 19-75,
`/repo/apps/transform/transform.1.md` lines 19-109. -/
def manual : Name → List Doc
  | .compress => common
  | .decompress => common
  | .diff => common ++ [flag "header-only" 'a', flag "data-only" 'd', opt "field" 'f', flag "reverse" 'r']
  | .filter => common ++ [opt "keep-class" 'k', opt "random-seed" 'a', opt "remove-class" 'r', opt "subsample" 's',
      flag "unique-xyz" 'u', flag "remove-coords" 'c']
  | .info => common ++ [flag "json" 'j', flag "header-info" 'a', flag "summary-info" 's', flag "quartiles" 'q',
      flag "classification-info" 'l', flag "metric-info" 'l', flag "compact" 'c']
  | .merge => common ++ [flag "quiet" 'q', opt "point-id" 'p']
  | .srs => common ++ [opt "srs" 's']
  | .tile => common ++ [flag "force" 'f', opt "tiles" 't', opt "digits" 'd', opt "tile-size" 's', opt "tile-size-x" 'x',
      opt "tile-size-y" 'y', opt "prefix" 'p']
  | .tool => common ++ [opt "random-seed" 'r', cmdArg "resolution", cmdArg "field-filename", opt "get-field" 'g', cmd "recenter-xy",
      cmd "recenter-xyz", cmdArg "resize-extra", opt "set-field" 's', cmd "subtract-min-xy", cmd "subtract-min-xyz",
      cmdArg "upsample-classifications"]
  | .transform => common ++ [opt "random-seed" 'a', cmdArg "add-x", cmdArg "add-y", cmdArg "add-z", cmdArg "copy-field",
      cmdArg "gaussian-noise", cmdArg "gaussian-noise-x", cmdArg "gaussian-noise-y", cmdArg "gaussian-noise-z", cmdArg "quantize-xyz",
      cmdArg "replace", cmdArg "replace-not", cmdArg "rotate-x", cmdArg "rotate-y", cmdArg "rotate-z", cmdArg "scale-x",
      cmdArg "scale-y", cmdArg "scale-z", cmdArg "set", cmdArg "uniform-noise", cmdArg "uniform-noise-x", cmdArg "uniform-noise-y",
      cmdArg "uniform-noise-z"]

/-- The forms in which the manual says that an option with the argument `v` may be written.  (The manual writes `--name=v` and `-c v`.) -/
def Doc.forms (d : Doc) (v : Str) : List (List Str) :=
  if d.hasArg then
    [["--".toList ++ d.name.toList ++ '=' :: v]] ++ (match d.letter with
      | some c => [[['-', c], v]]
      | none => [])
  else
    [["--".toList ++ d.name.toList]] ++ (match d.letter with
      | some c => [[['-', c]]]
      | none => [])

end Spoc.Spec.Manual
