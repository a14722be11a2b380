import Verif.Tests.Apps
import Verif.Model.Main

/-!
# The integration tests, transcribed (`/repo/tests/integration`)

As in `Verif.Tests.Unit`.  The scripts run the programs on the files of `test_data`, which are not part of the pinned source
(only references to them are); here they are replaced by random files.
-/

namespace Spoc.Tests

open TestUtils

/-- The parameters. -/
def params (b : Build) : Main.Params := ⟨b, Spec.toyZlib, shuffle, sortF, env⟩

/-- The files. -/
def disk : Tile.FS := fun n =>
  let stored (f : SpocFile) := some ⟨(Io.writeFile .release Spec.toyZlib f).bytes, true, true⟩
  if n = "juarez50.spoc".toList then stored (file 40 8)
  else if n = "juarez50.zpoc".toList then stored (file 40 8 true)
  else if n = "rome012.spoc".toList then stored (file 10 0)
  else if n = "romeo007.spoc".toList then stored (file 60 2)
  else none

/-- Run a program. -/
def run (b : Build) (fs : Tile.FS) (n : Main.Name) (args : List String) (stdin : Bytes := []) : Main.Result :=
  n.run (params b) (args.map String.toList) { fs := fs, canCreate := fun _ => true, stdin := { rest := stdin } }

/-- It succeeds. -/
def good (b : Build) (n : Main.Name) (args : List String) (stdin : Bytes := []) : Bool :=
  decide ((run b disk n args stdin).res = .ok 0)

/-- It reports an error. -/
def bad (b : Build) (n : Main.Name) (args : List String) (stdin : Bytes := []) : Bool :=
  match (run b disk n args stdin).res with
  | .ok k => k ≠ 0
  | .throw _ => true
  | .abort => true
  | _ => false

/-- The bytes of a file. -/
def bytesOf (fs : Tile.FS) (n : String) : Bytes := ((fs n.toList).map (·.content)).getD []

/-- The bytes of a file of the test data. -/
def cat (n : String) : Bytes := bytesOf disk n

/-! ## `test_diff.sh` -/

#guard builds (fun b => good b .diff ["--help"])
#guard builds (fun b => good b .diff ["juarez50.spoc", "juarez50.spoc"])
#guard builds (fun b => bad b .diff ["juarez50.spoc", "juarez50.zpoc"])
#guard builds (fun b => good b .diff ["-e", "juarez50.spoc", "juarez50.spoc"])
#guard builds (fun b => good b .diff ["-d", "juarez50.spoc", "juarez50.spoc"])
#guard builds (fun b => good b .diff ["-f", "x", "juarez50.spoc", "juarez50.spoc"])
#guard builds (fun b => good b .diff ["-f", "xyzrgbpci01234567", "juarez50.spoc", "juarez50.spoc"])
#guard builds (fun b => good b .diff ["-f", "x", "--field=yz", "--field=rgbpci01234567", "juarez50.spoc", "juarez50.spoc"])
#guard builds (fun b => good b .diff ["-f", "xyz", "--field=012345678", "juarez50.spoc", "juarez50.spoc"])
#guard builds (fun b => bad b .diff ["-f", "q", "juarez50.spoc", "juarez50.spoc"])

/-! ## `test_filter.sh` -/

#guard builds (fun b => good b .filter ["--help"])
#guard builds (fun b => good b .filter ["--unique-xyz", "juarez50.spoc", "output.spoc"])
#guard builds (fun b => good b .filter ["--subsample=1.1", "juarez50.spoc", "output.spoc"])
#guard builds (fun b => good b .filter ["--remove-coords", "x > 100", "juarez50.spoc", "output.spoc"])

/-! ## `test_info.sh` -/

#guard builds (fun b => good b .info ["--help"])
#guard builds (fun b => good b .info ["juarez50.spoc"])
#guard builds (fun b => good b .info ["juarez50.zpoc"])

/-! ## `test_merge.sh` and `test_tile.sh` -/

#guard builds (fun b => good b .merge ["--help"])
#guard builds (fun b => good b .tile ["--help"])

/-- The names of the tiles, as the shell expands `spoc_tile*.spoc`: those that exist. -/
def tileNames (fs : Tile.FS) (ext : String) : List String :=
  ((List.range 1000).map (fun k => "spoc_tile" ++ String.ofList (Text.padLeft 3 (Text.showNat k)) ++ ext)).filter
    (fun n => (fs n.toList).isSome)

#guard builds (fun b =>
    let r1 := run b disk .tile ["-p", "spoc_tile", "juarez50.spoc"]
    let r2 := run b r1.fs .merge (tileNames r1.fs ".spoc")
    let i1 := run b r1.fs .info ["-s", "juarez50.spoc"]
    let i2 := run b r1.fs .info ["-s"] r2.out
    decide (r1.res = .ok 0) && decide (1 < (tileNames r1.fs ".spoc").length) && decide (r2.res = .ok 0)
      && decide (i1.res = .ok 0) && decide (i2.res = .ok 0) && decide (i1.out = i2.out))
#guard builds (fun b =>
    let r1 := run b disk .tile ["-p", "spoc_tile", "juarez50.zpoc"]
    let r2 := run b r1.fs .merge (tileNames r1.fs ".zpoc")
    decide (r1.res = .ok 0) && decide (1 < (tileNames r1.fs ".zpoc").length) && decide (r2.res = .ok 0))
-- without `--force`, an existing file is not overwritten
#guard builds (fun b => ["juarez50.spoc", "juarez50.zpoc"].all (fun n =>
    let r1 := run b disk .tile ["-p", "spoc_tile", n]
    let r2 := run b r1.fs .tile ["--prefix=spoc_tile", n]
    let r3 := run b r1.fs .tile ["--force", "--prefix=spoc_tile", n]
    decide (r1.res = .ok 0) && decide (r2.res ≠ .ok 0) && decide (r3.res = .ok 0)))

/-! ## `test_srs.sh` -/

#guard builds (fun b => good b .srs ["--help"])
#guard builds (fun b => good b .srs ["juarez50.spoc"])
#guard builds (fun b => good b .srs ["-s", "invalid", "juarez50.spoc", "juarez50_invalid_srs.spoc"])
#guard builds (fun b => good b .srs [] (cat "juarez50.spoc"))
#guard builds (fun b => good b .srs ["juarez50.spoc", "rome012.spoc", "romeo007.spoc"])

/-! ## `test_tool.sh` -/

#guard builds (fun b => good b .tool ["--help"])

/-- What `--get-field` writes. -/
def fieldText (b : Build) (f : String) : Bytes := (run b disk .tool ["--get-field=" ++ f, "romeo007.spoc"]).out

/-- A file is added. -/
def withFile (fs : Tile.FS) (n : String) (bs : Bytes) : Tile.FS :=
  fun m => if m = n.toList then some ⟨bs, true, true⟩ else fs m

-- lines 18-27
#guard builds (fun b => ["x", "y", "c", "i"].all (fun f => good b .tool ["--get-field=" ++ f, "romeo007.spoc"]))
#guard builds (fun b => decide (fieldText b "x" ≠ fieldText b "y") && decide (fieldText b "c" ≠ fieldText b "i"))
-- lines 29-36
#guard builds (fun b =>
    let fs := withFile disk "i.txt" (fieldText b "i")
    let r := run b fs .tool ["--set-field=i", "--field-filename", "i.txt"] (cat "romeo007.spoc")
    decide (r.res = .ok 0)
      && decide ((run b (withFile fs "new.spoc" r.out) .diff ["romeo007.spoc", "new.spoc"]).res = .ok 0))
-- lines 38-48
#guard builds (fun b =>
    let fs := withFile disk "c.txt" ((fieldText b "c").map (fun k => if k = 49 then 50 else k))
    let r := run b fs .tool ["-s", "c", "-f", "c.txt"] (cat "romeo007.spoc")
    decide (r.res = .ok 0)
      && decide ((run b (withFile fs "new.spoc" r.out) .diff ["romeo007.spoc", "new.spoc"]).res ≠ .ok 0))
-- lines 52-62
#guard builds (fun b =>
    let r1 := run b disk .transform ["--set=c,0"] (cat "romeo007.spoc")
    let r2 := run b disk .filter ["--subsample=1.0"] r1.out
    let r3 := run b disk .transform ["--set=c,2"] r2.out
    let r4 := run b disk .tool ["--upsample-classifications=romeo007.spoc", "--resolution=1.0"] r3.out
    let r5 := run b disk .info [] r4.out
    [r1, r2, r3, r4, r5].all (fun r => decide (r.res = .ok 0))
      && holds (Io.readFile b Spec.toyZlib { rest := r4.out }) (fun f => f.1.prs.all (·.c = 2) && decide (f.1.prs.length = 60)))

/-! ## `test_transform.sh` -/

#guard builds (fun b => good b .transform ["-h"] && good b .transform ["--help"])
#guard builds (fun b => bad b .transform ["--asdf"])
#guard builds (fun b => ["--add-x=100", "--quantize-xyz=0.01", "--scale-x=10"].all (fun a =>
    good b .transform [a, "juarez50.spoc", "output.spoc"]))
#guard builds (fun b => ["--add-y=100", "--add-z=100", "--quantize-xyz=10", "--replace=c,1,2", "--replace-not=c,2,4,6,1",
    "--rotate-x=90", "--rotate-y=90", "--rotate-z=90", "--scale-y=10", "--scale-z=10"].all (fun a =>
      good b .transform [a] (cat "juarez50.spoc")))
#guard builds (fun b => ["--replace=x,1,2", "--replace-not=c,2", "--replace-not=x,1,2", "--replace-not=q,1,2"].all (fun a =>
    bad b .transform [a] (cat "juarez50.spoc")))
#guard builds (fun b => good b .transform ["--add-x=100", "--quantize-xyz=0.01", "--rotate-z=12.3", "juarez50.spoc", "output.spoc"])

end Spoc.Tests
