import Verif.Props.Hazards
import Verif.Proofs.Horizon

/-!
# The samples of the patterns of a grid seen at an angle

The check of the samples is divided, so that the checker does not need too much memory at once.
-/

namespace Rqrr

open Spec ImageBuffer LawfulImage FloatOps

/-- Three finder patterns and the two dark timing modules between them, seen in perspective. A row per number, the pixel on the left
first:
```
  ###############.........################################
  ################.........################################
  ##.........#####.........#################################
  ##...........###..........###................##############
  ##..###.......##..........####........................######
  ##..#######...###.........####.........................######
  ##..#######...###..........####....######..............#######
  ##...#######..###..........####....###############......#######
  ##...#######..###...........###.....###############......#######
  ##...#######...###..........####....################......#######
  ##...#######...###..........####.....###############.......#######
  ###....#####...###...........####....################......########
  ###............###...........####.....################......#######
  ####...........####..........#####....#################......#######
  #########.......###...........####.....################.......#######
  .#############..###...........#####....#################.......#######
  .....##############............####.....#################.......#######
  .........###########...........####.........#############.......########
  .............#######...####....#####..............########.......########
  .................###....####....####....................###.......########
  ........................####....######.............................########
  .........................###.....##########.........................########
  .................................###############....................#########
  ..................#..............####################................########
  #.................###.................####################............########
  ###...............####....................#####################........########
  ######............####........................######################....########
  ########...........###............................###############################
  ###########...........................................############################
  ###.##########............................................#########################
  ###...##########..............................................######################
  ###......##########...............................................###################
  ###........##########.................................................################
  ###..........###########..................................................#############
  ###............#########......................................................##########
  ###...##..........######..........................................................######
  ###...####..........####...............................................................##
  ###...######........####
  ###...########.......####
  ###...##########.....####
  ###...###########....####
  ###....##########....####
  ###....##########....#####
  ###....##########.....####
  ###....###########....####
  ####...###########....####
  ####...###########....#####
  ####...###########....#####
  ####...###########.....####
  ####...###########.....####
  ####....###########....#####
  ####.....##########....#####
  ####.......########....#####
  ####........#######.....####
  #####........######.....#####
  #######........####.....#####
  .#######........####....#####
  ..#######.........##....#####
  ...#######.........#.....#####
  ....########.............#####
  .....########............#####
  ......########...........#####
  .......########..........######
  ........########..........#####
  .........#########........#####
  ..........#########.......#####
  ...........#########......######
  .............########.....######
  ..............#########....#####
  ...............#########...#####
  ................#########..######
  .................#########.######
  ..................###############
  ...................##############
  ....................##############
  .....................#############
  ......................############
  ........................##########
  .........................##########
  ..........................#########
  ...........................########
  ............................#######
  .............................#######
  ..............................######
  ...............................#####
  ................................####
  .................................###
  ..................................###
  ....................................#
```
-/
def atAnAngle : List Nat :=
  [0x1fffc01fffffffe00000000, 0x1fffe00ffffffff00000000, 0x1803e00ffffffff80000000, 0x1800e0070000fffc0000000,
   0x19c060078000007e0000000, 0x19fc70078000003f0000000, 0x19fc7003c3f0003f8000000, 0x18fe7003c3fff81fc000000,
   0x18fe7001c1fffc0fe000000, 0x18fe3801e1fffe07f000000, 0x18fe3801e0fffe03f800000, 0x1c3e3800f0ffff03fc00000,
   0x1c003800f07fff81fc00000, 0x1e003c00f87fffc0fe00000, 0x1ff01c00783fffc07f00000, 0xfff9c007c3fffe03f80000,
   0xfffc003c1ffff01fc0000, 0xffe003c01fff01fe0000, 0xfe3c3e0007f80ff0000, 0xe1e1e00001c07f8000, 0x1e1f80000003fc000,
   0xe0ffc000001fe000, 0xfffe00001ff000, 0x4000fffff0000ff000, 0x10000700007ffff8007f800, 0x1c0007800007ffffc03fc00,
   0x1f80078000007ffffe1fe00, 0x1fe00380000007fffffff00, 0x1ffc00000000007ffffff80, 0x1dff800000000007fffffc0,
   0x1c7fe000000000007ffffe0, 0x1c0ffc000000000007ffff0, 0x1c03ff0000000000007fff8, 0x1c00ffe0000000000007ffc,
   0x1c003fe00000000000007fe, 0x1c6007e000000000000007e, 0x1c7801e0000000000000003, 0x1c7e01e0000000000000000,
   0x1c7f80f0000000000000000, 0x1c7fe0f0000000000000000, 0x1c7ff0f0000000000000000, 0x1c3ff0f0000000000000000,
   0x1c3ff0f8000000000000000, 0x1c3ff078000000000000000, 0x1c3ff878000000000000000, 0x1e3ff878000000000000000,
   0x1e3ff87c000000000000000, 0x1e3ff87c000000000000000, 0x1e3ff83c000000000000000, 0x1e3ff83c000000000000000,
   0x1e1ffc3e000000000000000, 0x1e0ffc3e000000000000000, 0x1e03fc3e000000000000000, 0x1e01fc1e000000000000000,
   0x1f00fc1f000000000000000, 0x1fc03c1f000000000000000, 0xfe01e1f000000000000000, 0x7f0061f000000000000000,
   0x3f8020f800000000000000, 0x1fe000f800000000000000, 0xff000f800000000000000, 0x7f800f800000000000000, 0x3fc00fc00000000000000,
   0x1fe007c00000000000000, 0xff807c00000000000000, 0x7fc07c00000000000000, 0x3fe07e00000000000000, 0xff07e00000000000000,
   0x7fc3e00000000000000, 0x3fe3e00000000000000, 0x1ff3f00000000000000, 0xffbf00000000000000, 0x7fff00000000000000,
   0x3fff00000000000000, 0x1fff80000000000000, 0xfff80000000000000, 0x7ff80000000000000, 0x1ff80000000000000, 0xffc0000000000000,
   0x7fc0000000000000, 0x3fc0000000000000, 0x1fc0000000000000, 0xfe0000000000000, 0x7e0000000000000, 0x3e0000000000000,
   0x1e0000000000000, 0xe0000000000000, 0x70000000000000, 0x10000000000000]

/-- Its pixels. -/
def atAnAngleAt (x y : Nat) : Bool := (atAnAngle.getD y 0).testBit (88 - x)

/-- The corners of the capstones found in it. -/
def atAnAngleCorners : List (List (Int × Int)) :=
  [[(0, 14), (0, 0), (15, 1), (19, 19)], [(88, 36), (33, 23), (24, 0), (55, 0)], [(36, 88), (0, 55), (0, 24), (23, 33)]]

/-- The outer corners, and where the edges of two of the patterns meet. -/
def atAnAngleRect : Vector Point 4 := #v[⟨0, 0⟩, ⟨24, 0⟩, ⟨39, 39⟩, ⟨0, 24⟩]

/-- The transform made of these points. -/
def atAnAngleMap : Perspective F64 := (Perspective.create atAnAngleRect (ofInt 10) (ofInt 10)).getD (Vector.replicate 8 (ofInt 0))

/-- Whether all samples of a module are inside of the image and have this colour. -/
def cellTest (x y : Nat) (dark : Bool) : Bool :=
  (sampleOffsets F64).all fun ou => (sampleOffsets F64).all fun ov =>
    endsWith (atAnAngleMap.map (add (ofInt x) ou) (add (ofInt y) ov)) fun p =>
      decide (0 ≤ p.x ∧ p.x < 89 ∧ 0 ≤ p.y ∧ p.y < 89) && (atAnAngleAt p.x.toNat p.y.toNat == dark)

/-- Whether the modules of a row of a finder pattern are like that. -/
def finderRowTest (x y i : Nat) : Bool := (List.range 7).all fun j => cellTest (x + j) (y + i) (finderDark i j)

theorem rows_a0 : (finderRowTest 0 0 0 && finderRowTest 0 0 1) = true := by decide +kernel
theorem rows_a1 : (finderRowTest 0 0 2 && finderRowTest 0 0 3) = true := by decide +kernel
theorem rows_a2 : (finderRowTest 0 0 4 && finderRowTest 0 0 5) = true := by decide +kernel
theorem rows_a3 : (finderRowTest 0 0 6) = true := by decide +kernel
theorem rows_b0 : (finderRowTest 10 0 0 && finderRowTest 10 0 1) = true := by decide +kernel
theorem rows_b1 : (finderRowTest 10 0 2 && finderRowTest 10 0 3) = true := by decide +kernel
theorem rows_b2 : (finderRowTest 10 0 4 && finderRowTest 10 0 5) = true := by decide +kernel
theorem rows_b3 : (finderRowTest 10 0 6) = true := by decide +kernel
theorem rows_c0 : (finderRowTest 0 10 0 && finderRowTest 0 10 1) = true := by decide +kernel
theorem rows_c1 : (finderRowTest 0 10 2 && finderRowTest 0 10 3) = true := by decide +kernel
theorem rows_c2 : (finderRowTest 0 10 4 && finderRowTest 0 10 5) = true := by decide +kernel
theorem rows_c3 : (finderRowTest 0 10 6) = true := by decide +kernel

theorem rows_timing : ((List.range 3).all fun i => cellTest (i + 7) 6 (timingDark (i + 7)) && cellTest 6 (i + 7) (timingDark (i + 7))) = true := by
  decide +kernel

/-- The transform exists, and the far corner of the bounds is out of range. -/
theorem atAnAngle_far : ((Perspective.create (F := F64) atAnAngleRect (ofInt 10) (ofInt 10)).isSome &&
    isPanic (atAnAngleMap.map (ofInt 17 + lit 1 0) (ofInt 17 + lit 1 0))) = true := by decide +kernel

section
variable {S : Type} [ImageBuffer S] [LawfulImage S] {img0 img : PreparedImage S} {claims : Pos → Option Claim}

theorem cellTest_ok (h0 : Fresh img0) (h : History img0 claims img) (hw : width img0.buffer = 89) (hh : height img0.buffer = 89)
    (hv : ∀ x y, x < 89 → y < 89 → (IsBlack img0 (x, y) ↔ atAnAngleAt x y = true)) {x y : Nat} {dark : Bool} (ht : cellTest x y dark = true) :
    fitness_cell img atAnAngleMap x y = .ok (if dark then 9 else -9) := by
  have hs : ∀ ou ∈ sampleOffsets F64, ∀ ov ∈ sampleOffsets F64,
      atAnAngleMap.map (add (ofInt x) ou) (add (ofInt y) ov) = .ok (samplePoint atAnAngleMap y x ou ov) ∧
      (0 ≤ (samplePoint atAnAngleMap y x ou ov).x ∧ (samplePoint atAnAngleMap y x ou ov).x < 89 ∧ 0 ≤ (samplePoint atAnAngleMap y x ou ov).y ∧
        (samplePoint atAnAngleMap y x ou ov).y < 89) ∧
      atAnAngleAt (samplePoint atAnAngleMap y x ou ov).x.toNat (samplePoint atAnAngleMap y x ou ov).y.toNat = dark := by
    intro ou hu ov hv
    obtain ⟨p, e, hp⟩ := endsWith_eq (List.all_eq_true.1 (List.all_eq_true.1 ht ou hu) ov hv)
    obtain ⟨p1, p2⟩ := Bool.and_eq_true_iff.1 hp
    have ep : samplePoint atAnAngleMap y x ou ov = p := by unfold samplePoint; rw [e]
    rw [ep]
    exact ⟨e, of_decide_eq_true p1, by simpa using p2⟩
  have hsam : SamplesAt atAnAngleMap x y (samplePoint atAnAngleMap y x) := by
    intro ou hu ov hv
    obtain ⟨e, ⟨h1, h2, h3, h4⟩, -⟩ := hs ou hu ov hv
    exact ⟨e, by omega, by omega, by omega, by omega⟩
  rw [fitness_cell_ok h0 h (by omega) (by omega) hsam]
  obtain ⟨-, -, h9, h9'⟩ := moduleScore_le img0 (samplePoint atAnAngleMap y x)
  have hin : ∀ ou ∈ sampleOffsets F64, ∀ ov ∈ sampleOffsets F64, Inside img0 (samplePoint atAnAngleMap y x ou ov) ∧
      (BlackAt img0 (samplePoint atAnAngleMap y x ou ov) ↔ dark = true) := by
    intro ou hu ov hv'
    obtain ⟨-, ⟨h1, h2, h3, h4⟩, h5⟩ := hs ou hu ov hv'
    refine ⟨⟨h1, by omega, h3, by omega⟩, ?_⟩
    unfold BlackAt
    rw [hv _ _ (by omega) (by omega), h5]
  cases dark
  · rw [h9'.2 fun ou hu ov hv => ⟨(hin ou hu ov hv).1, fun hb => by simpa using (hin ou hu ov hv).2.1 hb⟩]
    rfl
  · rw [h9.2 fun ou hu ov hv => ⟨(hin ou hu ov hv).1, (hin ou hu ov hv).2.2 rfl⟩]
    rfl

/-- The scores that the modules of the patterns of the smallest size should have. -/
def ideal17 (x y : Int) : Int :=
  let x := x.toNat
  let y := y.toNat
  let dark := if x < 7 ∧ y < 7 then finderDark y x
    else if y < 7 ∧ 10 ≤ x then finderDark y (x - 10)
    else if x < 7 ∧ 10 ≤ y then finderDark (y - 10) x
    else if y = 6 then timingDark x else timingDark y
  if dark then 9 else -9

theorem atAnAngle_finder (h0 : Fresh img0) (h : History img0 claims img) (hw : width img0.buffer = 89) (hh : height img0.buffer = 89)
    (hv : ∀ x y, x < 89 → y < 89 → (IsBlack img0 (x, y) ↔ atAnAngleAt x y = true)) {X Y : Nat}
    (hr : ∀ i < 7, finderRowTest X Y i = true)
    (hid : ∀ i < 7, ∀ j < 7, ideal17 (X + j : Nat) (Y + i : Nat) = if finderDark i j then 9 else -9) :
    CellsAround img atAnAngleMap ideal17 (X + 3) (Y + 3) 3 := by
  intro x y h1 h2 h3 h4
  obtain ⟨j, rfl⟩ : ∃ j : Nat, x = ((X + j : Nat) : Int) := ⟨(x - X).toNat, by push_cast; omega⟩
  obtain ⟨i, rfl⟩ : ∃ i : Nat, y = ((Y + i : Nat) : Int) := ⟨(y - Y).toNat, by push_cast; omega⟩
  rw [hid i (by omega) j (by omega)]
  exact cellTest_ok h0 h hw hh hv (List.all_eq_true.1 (hr i (by omega)) j (List.mem_range.2 (by omega)))

/-- The transform fits perfectly. -/
theorem atAnAngle_fits (h0 : Fresh img0) (h : History img0 claims img) (hw : width img0.buffer = 89) (hh : height img0.buffer = 89)
    (hv : ∀ x y, x < 89 → y < 89 → (IsBlack img0 (x, y) ↔ atAnAngleAt x y = true)) : fitness_all img atAnAngleMap 17 = .ok 1377 := by
  have four : ∀ {X Y : Nat}, (finderRowTest X Y 0 && finderRowTest X Y 1) = true → (finderRowTest X Y 2 && finderRowTest X Y 3) = true →
      (finderRowTest X Y 4 && finderRowTest X Y 5) = true → finderRowTest X Y 6 = true → ∀ i < 7, finderRowTest X Y i = true := by
    intro X Y h1 h2 h3 h4 i hi
    obtain ⟨a, b⟩ := Bool.and_eq_true_iff.1 h1
    obtain ⟨c, d⟩ := Bool.and_eq_true_iff.1 h2
    obtain ⟨e, f⟩ := Bool.and_eq_true_iff.1 h3
    interval_cases i <;> assumption
  have ha := atAnAngle_finder h0 h hw hh hv (four rows_a0 rows_a1 rows_a2 rows_a3) (by decide)
  have hb := atAnAngle_finder h0 h hw hh hv (four rows_b0 rows_b1 rows_b2 rows_b3) (by decide)
  have hc := atAnAngle_finder h0 h hw hh hv (four rows_c0 rows_c1 rows_c2 rows_c3) (by decide)
  have ht := timing_sum (img := img) (p := atAnAngleMap) (f := ideal17) 3 (by
    intro i hi
    have := List.all_eq_true.1 rows_timing i (List.mem_range.2 hi)
    obtain ⟨t1, t2⟩ := Bool.and_eq_true_iff.1 this
    have e1 := cellTest_ok h0 h hw hh hv t1
    have e2 := cellTest_ok h0 h hw hh hv t2
    push_cast at e1 e2
    rw [e1, e2]
    interval_cases i <;> exact ⟨rfl, rfl⟩)
  have h1 : fitness_capstone img atAnAngleMap 0 0 = _ := fitness_capstone_sum ha
  have h2 : fitness_capstone img atAnAngleMap (((17 : Nat) : Int) - 7) 0 = _ := fitness_capstone_sum hb
  have h3 : fitness_capstone img atAnAngleMap 0 (((17 : Nat) : Int) - 7) = _ := fitness_capstone_sum hc
  obtain ⟨info, hi, e⟩ : ∃ info, idx VERSION_DATA_BASE 0 = .ok info ∧ (info.apat.takeWhile (· != 0)).length = 0 := ⟨_, rfl, by decide⟩
  unfold fitness_all
  rw [show version_from_grid_size 17 = .ok 0 from rfl, Run.ok_bind, hi, Run.ok_bind, show 17 - 14 = 3 from rfl, ht, Run.ok_bind, h1, Run.ok_bind, h2,
    Run.ok_bind, h3, Run.ok_bind]
  dsimp only
  rw [e]
  exact congrArg Except.ok (show agreement ideal17 ((List.range 3).flatMap fun i => [(6, i + 7, timingDark (i + 7)), (i + 7, 6, timingDark (i + 7))]) +
    agreement ideal17 (square 7 finderDark 0 0) + agreement ideal17 (square 7 finderDark 0 10) + agreement ideal17 (square 7 finderDark 10 0) = 1377 by
      decide)

end

end Rqrr
