import Verif.Model.Identify
import Verif.Model.Lib

/-!
# Running the model

A program that reads luma images and prints what the model of the library makes of them, with the doubles of the machine. It is
not part of any proof; `validation/run.sh` compiles it and runs it on the images of the tests in `/repo/tests`.
-/

namespace Rqrr

attribute [local instance] floatOps

def Fault.text : Fault → String
  | .err e => s!"err {repr e}"
  | .panic => "panic"
  | .diverge => "diverge"

/-- A file of the width and height, 4 bytes each, least first, and then a byte per pixel. -/
def runFile (f : String) : IO Unit := do
  let b ← IO.FS.readBinFile f
  let g (i : Nat) := (b.get! i).toNat
  let w := g 0 + 256 * g 1
  let h := g 4 + 256 * g 5
  let px : Array Byte := Array.ofFn (n := w * h) fun i => (b.get! (i.val + 8)).toBitVec
  IO.println s!"== {f} {w}x{h}"
  match PreparedImage.prepare ({ w := w, h := h, pixels := px } : GrayImage) with
  | .error e => IO.println s!"prepare: {e.text}"
  | .ok img =>
    match capstones_from_image Float img with
    | .error e => IO.println s!"capstones: {e.text}"
    | .ok (_, c) => IO.println s!"capstones: {c.length}"
    match img.detect_grids Float with
    | .error e => IO.println s!"detect: {e.text}"
    | .ok (img', grids) =>
      IO.println s!"grids: {grids.length}"
      for g in grids do
        let G := RefGridImage g.location img'
        let pts := g.bounds.map fun p => (p.x, p.y)
        match Grid.decode G with
        | .error e => IO.println s!"  size {G.size} bounds {pts} -> {e.text}"
        | .ok (md, s) => IO.println s!"  size {G.size} bounds {pts} -> v{repr md.version} ecc {md.ecc_level} mask {md.mask} {s}"
  (← IO.getStdout).flush

end Rqrr

def main (args : List String) : IO Unit := do
  for f in args do
    Rqrr.runFile f
