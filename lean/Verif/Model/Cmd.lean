import Verif.Base.Getopt
import Verif.Base.Res

/-!
# The command lines of the applications (`/repo/apps/*/*_cmd.h`, `/repo/spoc/cmd.h`)

Values of options: letters have their ASCII code, the enumerations start at 1000.
-/

namespace Spoc.Cmd

open Getopt

/-- What an application passes to `getopt_long`. -/
structure App where
  optstring : Str
  longs : List LongOpt

/-- The options of the compress application (`/repo/apps/compress/compress_cmd.h` lines 28-35). -/
def compress : App where
  optstring := ['h', 'v', 'e']
  longs := [
    ⟨['h', 'e', 'l', 'p'], false, 104⟩,
    ⟨['v', 'e', 'r', 'b', 'o', 's', 'e'], false, 118⟩,
    ⟨['v', 'e', 'r', 's', 'i', 'o', 'n'], false, 101⟩]

/-- The options of the decompress application (`/repo/apps/decompress/decompress_cmd.h` lines 28-35). -/
def decompress : App where
  optstring := ['h', 'v', 'e']
  longs := [
    ⟨['h', 'e', 'l', 'p'], false, 104⟩,
    ⟨['v', 'e', 'r', 'b', 'o', 's', 'e'], false, 118⟩,
    ⟨['v', 'e', 'r', 's', 'i', 'o', 'n'], false, 101⟩]

/-- The options of the diff application (`/repo/apps/diff/diff_cmd.h` lines 33-44). -/
def diff : App where
  optstring := ['h', 'v', 'e', 'a', 'd', 'f', ':', 'r']
  longs := [
    ⟨['h', 'e', 'l', 'p'], false, 104⟩,
    ⟨['v', 'e', 'r', 'b', 'o', 's', 'e'], false, 118⟩,
    ⟨['v', 'e', 'r', 's', 'i', 'o', 'n'], false, 101⟩,
    ⟨['h', 'e', 'a', 'd', 'e', 'r', '-', 'o', 'n', 'l', 'y'], false, 97⟩,
    ⟨['d', 'a', 't', 'a', '-', 'o', 'n', 'l', 'y'], false, 100⟩,
    ⟨['f', 'i', 'e', 'l', 'd'], true, 102⟩,
    ⟨['r', 'e', 'v', 'e', 'r', 's', 'e'], false, 114⟩]

/-- The options of the filter application (`/repo/apps/filter/filter_cmd.h` lines 37-50). -/
def filter : App where
  optstring := ['h', 'v', 'e', 'k', ':', 'a', ':', 'r', ':', 'u', 's', ':', 'c', ':']
  longs := [
    ⟨['h', 'e', 'l', 'p'], false, 104⟩,
    ⟨['v', 'e', 'r', 'b', 'o', 's', 'e'], false, 118⟩,
    ⟨['v', 'e', 'r', 's', 'i', 'o', 'n'], false, 101⟩,
    ⟨['k', 'e', 'e', 'p', '-', 'c', 'l', 'a', 's', 's'], true, 107⟩,
    ⟨['r', 'a', 'n', 'd', 'o', 'm', '-', 's', 'e', 'e', 'd'], true, 97⟩,
    ⟨['r', 'e', 'm', 'o', 'v', 'e', '-', 'c', 'l', 'a', 's', 's'], true, 114⟩,
    ⟨['u', 'n', 'i', 'q', 'u', 'e', '-', 'x', 'y', 'z'], false, 117⟩,
    ⟨['s', 'u', 'b', 's', 'a', 'm', 'p', 'l', 'e'], true, 115⟩,
    ⟨['r', 'e', 'm', 'o', 'v', 'e', '-', 'c', 'o', 'o', 'r', 'd', 's'], true, 99⟩]

/-- The options of the info application (`/repo/apps/info/info_cmd.h` lines 35-49). -/
def info : App where
  optstring := ['h', 'v', 'e', 'j', 'a', 's', 'l', 'c', 'm', 'q']
  longs := [
    ⟨['h', 'e', 'l', 'p'], false, 104⟩,
    ⟨['v', 'e', 'r', 'b', 'o', 's', 'e'], false, 118⟩,
    ⟨['v', 'e', 'r', 's', 'i', 'o', 'n'], false, 101⟩,
    ⟨['j', 's', 'o', 'n'], false, 106⟩,
    ⟨['h', 'e', 'a', 'd', 'e', 'r', '-', 'i', 'n', 'f', 'o'], false, 97⟩,
    ⟨['s', 'u', 'm', 'm', 'a', 'r', 'y', '-', 'i', 'n', 'f', 'o'], false, 115⟩,
    ⟨['c', 'l', 'a', 's', 's', 'i', 'f', 'i', 'c', 'a', 't', 'i', 'o', 'n', '-', 'i', 'n', 'f', 'o'], false, 108⟩,
    ⟨['m', 'e', 't', 'r', 'i', 'c', '-', 'i', 'n', 'f', 'o'], false, 109⟩,
    ⟨['c', 'o', 'm', 'p', 'a', 'c', 't'], false, 99⟩,
    ⟨['q', 'u', 'a', 'r', 't', 'i', 'l', 'e', 's'], false, 113⟩]

/-- The options of the merge application (`/repo/apps/merge/merge_cmd.h` lines 30-39). -/
def merge : App where
  optstring := ['h', 'v', 'e', 'q', 'p', ':']
  longs := [
    ⟨['h', 'e', 'l', 'p'], false, 104⟩,
    ⟨['v', 'e', 'r', 'b', 'o', 's', 'e'], false, 118⟩,
    ⟨['v', 'e', 'r', 's', 'i', 'o', 'n'], false, 101⟩,
    ⟨['q', 'u', 'i', 'e', 't'], false, 113⟩,
    ⟨['p', 'o', 'i', 'n', 't', '-', 'i', 'd'], true, 112⟩]

/-- The options of the srs application (`/repo/apps/srs/srs_cmd.h` lines 30-38). -/
def srs : App where
  optstring := ['h', 'v', 'e', 's', ':']
  longs := [
    ⟨['h', 'e', 'l', 'p'], false, 104⟩,
    ⟨['v', 'e', 'r', 'b', 'o', 's', 'e'], false, 118⟩,
    ⟨['v', 'e', 'r', 's', 'i', 'o', 'n'], false, 101⟩,
    ⟨['s', 'r', 's'], true, 115⟩]

/-- The options of the tile application (`/repo/apps/tile/tile_cmd.h` lines 34-48). -/
def tile : App where
  optstring := ['h', 'v', 'e', 'f', 't', ':', 'd', ':', 's', ':', 'x', ':', 'y', ':', 'p', ':']
  longs := [
    ⟨['h', 'e', 'l', 'p'], false, 104⟩,
    ⟨['v', 'e', 'r', 'b', 'o', 's', 'e'], false, 118⟩,
    ⟨['v', 'e', 'r', 's', 'i', 'o', 'n'], false, 101⟩,
    ⟨['f', 'o', 'r', 'c', 'e'], false, 102⟩,
    ⟨['t', 'i', 'l', 'e', 's'], true, 116⟩,
    ⟨['d', 'i', 'g', 'i', 't', 's'], true, 100⟩,
    ⟨['t', 'i', 'l', 'e', '-', 's', 'i', 'z', 'e'], true, 115⟩,
    ⟨['t', 'i', 'l', 'e', '-', 's', 'i', 'z', 'e', '-', 'x'], true, 120⟩,
    ⟨['t', 'i', 'l', 'e', '-', 's', 'i', 'z', 'e', '-', 'y'], true, 121⟩,
    ⟨['p', 'r', 'e', 'f', 'i', 'x'], true, 112⟩]

/-- The options of the tool application (`/repo/apps/tool/tool_cmd.h` lines 63-80). -/
def tool : App where
  optstring := ['h', 'v', 'e', 'g', ':', 's', ':', 'f', ':']
  longs := [
    ⟨['h', 'e', 'l', 'p'], false, 104⟩,
    ⟨['v', 'e', 'r', 'b', 'o', 's', 'e'], false, 118⟩,
    ⟨['v', 'e', 'r', 's', 'i', 'o', 'n'], false, 101⟩,
    ⟨['g', 'e', 't', '-', 'f', 'i', 'e', 'l', 'd'], true, 103⟩,
    ⟨['r', 'e', 'c', 'e', 'n', 't', 'e', 'r', '-', 'x', 'y'], false, 1000⟩,
    ⟨['r', 'e', 'c', 'e', 'n', 't', 'e', 'r', '-', 'x', 'y', 'z'], false, 1001⟩,
    ⟨['r', 'e', 's', 'i', 'z', 'e', '-', 'e', 'x', 't', 'r', 'a'], true, 1002⟩,
    ⟨['s', 'e', 't', '-', 'f', 'i', 'e', 'l', 'd'], true, 115⟩,
    ⟨['f', 'i', 'e', 'l', 'd', '-', 'f', 'i', 'l', 'e', 'n', 'a', 'm', 'e'], true, 102⟩,
    ⟨['s', 'u', 'b', 't', 'r', 'a', 'c', 't', '-', 'm', 'i', 'n', '-', 'x', 'y'], false, 1003⟩,
    ⟨['s', 'u', 'b', 't', 'r', 'a', 'c', 't', '-', 'm', 'i', 'n', '-', 'x', 'y', 'z'], false, 1004⟩,
    ⟨['u', 'p', 's', 'a', 'm', 'p', 'l', 'e', '-', 'c', 'l', 'a', 's', 's', 'i', 'f', 'i', 'c', 'a', 't', 'i', 'o', 'n', 's'], true, 1005⟩,
    ⟨['r', 'e', 's', 'o', 'l', 'u', 't', 'i', 'o', 'n'], true, 1006⟩]

/-- The options of the transform application (`/repo/apps/transform/transform_cmd.h` lines 73-103). -/
def transform : App where
  optstring := ['h', 'v', 'e']
  longs := [
    ⟨['h', 'e', 'l', 'p'], false, 104⟩,
    ⟨['v', 'e', 'r', 'b', 'o', 's', 'e'], false, 118⟩,
    ⟨['v', 'e', 'r', 's', 'i', 'o', 'n'], false, 101⟩,
    ⟨['a', 'd', 'd', '-', 'x'], true, 1000⟩,
    ⟨['a', 'd', 'd', '-', 'y'], true, 1001⟩,
    ⟨['a', 'd', 'd', '-', 'z'], true, 1002⟩,
    ⟨['c', 'o', 'p', 'y', '-', 'f', 'i', 'e', 'l', 'd'], true, 1003⟩,
    ⟨['g', 'a', 'u', 's', 's', 'i', 'a', 'n', '-', 'n', 'o', 'i', 's', 'e'], true, 1004⟩,
    ⟨['g', 'a', 'u', 's', 's', 'i', 'a', 'n', '-', 'n', 'o', 'i', 's', 'e', '-', 'x'], true, 1005⟩,
    ⟨['g', 'a', 'u', 's', 's', 'i', 'a', 'n', '-', 'n', 'o', 'i', 's', 'e', '-', 'y'], true, 1006⟩,
    ⟨['g', 'a', 'u', 's', 's', 'i', 'a', 'n', '-', 'n', 'o', 'i', 's', 'e', '-', 'z'], true, 1007⟩,
    ⟨['q', 'u', 'a', 'n', 't', 'i', 'z', 'e', '-', 'x', 'y', 'z'], true, 1008⟩,
    ⟨['r', 'a', 'n', 'd', 'o', 'm', '-', 's', 'e', 'e', 'd'], true, 97⟩,
    ⟨['r', 'e', 'p', 'l', 'a', 'c', 'e'], true, 1009⟩,
    ⟨['r', 'e', 'p', 'l', 'a', 'c', 'e', '-', 'n', 'o', 't'], true, 1010⟩,
    ⟨['r', 'o', 't', 'a', 't', 'e', '-', 'x'], true, 1011⟩,
    ⟨['r', 'o', 't', 'a', 't', 'e', '-', 'y'], true, 1012⟩,
    ⟨['r', 'o', 't', 'a', 't', 'e', '-', 'z'], true, 1013⟩,
    ⟨['s', 'c', 'a', 'l', 'e', '-', 'x'], true, 1014⟩,
    ⟨['s', 'c', 'a', 'l', 'e', '-', 'y'], true, 1015⟩,
    ⟨['s', 'c', 'a', 'l', 'e', '-', 'z'], true, 1016⟩,
    ⟨['s', 'e', 't'], true, 1017⟩,
    ⟨['u', 'n', 'i', 'f', 'o', 'r', 'm', '-', 'n', 'o', 'i', 's', 'e'], true, 1018⟩,
    ⟨['u', 'n', 'i', 'f', 'o', 'r', 'm', '-', 'n', 'o', 'i', 's', 'e', '-', 'x'], true, 1019⟩,
    ⟨['u', 'n', 'i', 'f', 'o', 'r', 'm', '-', 'n', 'o', 'i', 's', 'e', '-', 'y'], true, 1020⟩,
    ⟨['u', 'n', 'i', 'f', 'o', 'r', 'm', '-', 'n', 'o', 'i', 's', 'e', '-', 'z'], true, 1021⟩]

/-- All applications. -/
def apps : List App := [compress, decompress, diff, filter, info, merge, srs, tile, tool, transform]

/-- The events and operands of a command line (without the name of the program). -/
def App.parse (a : App) (argv : List Str) : List Event × List Str := Getopt.parse (shortsOf a.optstring) a.longs argv

/-! ## `/repo/spoc/cmd.h` -/

/-- One option of the help text (`/repo/spoc/cmd.h` lines 29-40).  The option table holds `char`s below 128 or values from 1000 on. -/
def helpLine (o : LongOpt) : Str :=
  ['\t', '-', '-'] ++ o.name ++ (if o.hasArg then ['=', '<', 'A', 'R', 'G', '>'] else [])
    ++ (if o.val < 256 then [',', ' ', '-', Char.ofNat o.val] ++ (if o.hasArg then [' ', '<', 'A', 'R', 'G', '>'] else []) else [])
    ++ ['\n']

/-- The option with an index (`/repo/spoc/cmd.h` lines 29-40). -/
def helpLineAt (longs : List LongOpt) (i : Nat) : Res Str :=
  match longs[i]? with
  | some o => .ok (helpLine o)
  | none => .ub "option table index out of range"

/-- `print_help` (`/repo/spoc/cmd.h` lines 14-42).  `longs` is the table without the entry of zeros at its end, `noptions` the length of
the table including it. -/
def printHelp (b : Build) (usage : Str) (noptions : Nat) (longs : List LongOpt) : Res Str := do
  require b (!usage.isEmpty)
  let head := ['U', 's', 'a', 'g', 'e', ':', '\n', '\t'] ++ usage ++ ['\n', '\n']
  if noptions = 0 then .ok head
  else do
    let ls ← (List.range (noptions - 1)).mapM (helpLineAt longs)
    .ok (head ++ ['O', 'p', 't', 'i', 'o', 'n', 's', ':', '\n'] ++ ls.flatten)

/-- The help text of an application (`/repo/apps/compress/compress_cmd.h` lines 43-44 and the same in the others). -/
def App.help (a : App) (b : Build) (usage : Str) : Res Str := printHelp b usage (a.longs.length + 1) a.longs

/-! ## From the values of `getopt_long` to the switch -/

/-- The case labels of the switches are the values of the option table: the option with a value, by its name.  `"?"` stands for every other
value, which the `default` label rejects. -/
def nameOf (longs : List LongOpt) (v : Nat) : String :=
  match longs.find? (fun o => decide (o.val = v)) with
  | some o => String.ofList o.name
  | none => "?"

/-- The options in the form that the models of the applications take. -/
def App.options (a : App) (argv : List Str) : List (String × Str) :=
  (a.parse argv).1.map (fun e => (nameOf a.longs e.val, e.arg.getD []))

/-- The arguments that are no options. -/
def App.operands (a : App) (argv : List Str) : List Str := (a.parse argv).2

/-- Optional input and output file name (`/repo/apps/compress/compress_cmd.h` lines 56-66 and the same in decompress, filter, tool,
transform). -/
def inOut (operands : List Str) : Res (Str × Str) :=
  match operands with
  | [] => .ok ([], [])
  | [i] => .ok (i, [])
  | [i, o] => .ok (i, o)
  | _ => .throw "Too many arguments on command line"

/-- Two input file names (`/repo/apps/diff/diff_cmd.h` lines 75-88). -/
def two (operands : List Str) : Res (Str × Str) :=
  match operands with
  | [] => .throw "No input filename 1 was specified"
  | [_] => .throw "No input filename 2 was specified"
  | [i, j] => .ok (i, j)
  | _ => .throw "Too many arguments on command line"

/-- Optional input file name (`/repo/apps/tile/tile_cmd.h` lines 76-83). -/
def one (operands : List Str) : Res Str :=
  match operands with
  | [] => .ok []
  | [i] => .ok i
  | _ => .throw "Too many arguments on command line"

/-- `struct args` of compress and decompress (`/repo/apps/compress/compress_cmd.h` lines 13-20) without file names. -/
structure Basic where
  help : Bool := false
  verbose : Bool := false
  version : Bool := false
  deriving DecidableEq, Repr

/-- The switch of compress and decompress (`/repo/apps/compress/compress_cmd.h` lines 39-53). -/
def basicArgs : List (String × Str) → Basic → Res Basic
  | [], a => .ok a
  | (name, _) :: os, a =>
    if name = "help" then .ok { a with help := true }
    else if name = "verbose" then basicArgs os { a with verbose := true }
    else if name = "version" then basicArgs os { a with version := true }
    else .throw "Invalid option"

/-- `struct args` of srs (`/repo/apps/srs/srs_cmd.h` lines 14-22) without file names. -/
structure SrsArgs where
  help : Bool := false
  verbose : Bool := false
  version : Bool := false
  srs : Option Str := none
  deriving DecidableEq, Repr

/-- The switch of srs (`/repo/apps/srs/srs_cmd.h` lines 42-61); `srs` and `set_srs` are one field. -/
def srsArgs : List (String × Str) → SrsArgs → Res SrsArgs
  | [], a => .ok a
  | (name, arg) :: os, a =>
    if name = "help" then .ok { a with help := true }
    else if name = "verbose" then srsArgs os { a with verbose := true }
    else if name = "version" then srsArgs os { a with version := true }
    else if name = "srs" then srsArgs os { a with srs := some arg }
    else .throw "Invalid option"

end Spoc.Cmd
