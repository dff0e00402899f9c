import Verif.Props.Astray
import Verif.Props.Mirrored
import Verif.Props.Codestream

/-!
# A version 21 symbol at level L that no wrong module may be added to

The message consists of 113 times the letter x. It fills the first block; the other blocks are all zero. The first block has 14
codewords that are read from wrong places, and all of them are read wrong.
-/

namespace Rqrr

open Spec

/-- The first block. -/
def tightBlock : List Byte :=
  [64, 7, 23] ++ List.replicate 112 135 ++ [128] ++
    [39, 5, 177, 169, 39, 150, 125, 0, 202, 87, 192, 106, 71, 243, 46, 10, 7, 142, 112, 9, 252, 197, 108, 172, 221, 92, 105, 96]

/-- All blocks. -/
def tightBlocks (i : Nat) : List Byte := if i = 0 then tightBlock else List.replicate (if i < 4 then 144 else 145) 0

/-- What is read for the first block if the first bit is wrong. -/
def tightRead : List Byte := [
    192, 7, 23, 135, 135, 135, 0, 0, 96, 0, 0, 32, 0, 0, 0, 0, 135, 135, 135, 135, 135, 135, 135, 135, 135, 135, 135, 135,
    135, 135, 135, 135, 135, 135, 135, 135, 135, 135, 135, 135, 7, 135, 135, 135, 135, 158, 135, 135, 135, 135, 135, 135,
    135, 135, 135, 135, 135, 135, 135, 135, 135, 135, 135, 135, 135, 135, 135, 135, 135, 135, 135, 135, 135, 135, 135, 135,
    135, 135, 135, 135, 135, 135, 135, 135, 135, 135, 135, 135, 135, 135, 135, 135, 135, 135, 135, 135, 135, 135, 135, 135,
    135, 135, 135, 135, 135, 7, 135, 135, 135, 135, 158, 135, 135, 135, 135, 128, 39, 5, 177, 169, 39, 150, 125, 0, 202,
    87, 192, 106, 71, 243, 46, 10, 7, 142, 112, 9, 252, 197, 108, 172, 221, 92, 105, 96]

/-- Where the bits of the astray codewords of the first block are read: number of the bit, module, and the number of the bit
that this module shows, if any. -/
def tightTable : List (Nat × (Nat × Nat) × Option Nat) := [
    (384, (92, 96), none), (385, (92, 95), none), (386, (91, 96), some 376), (387, (91, 95), some 377),
    (388, (90, 96), some 378), (389, (90, 95), some 379), (390, (89, 96), some 380), (391, (89, 95), some 381),
    (448, (60, 96), some 428), (449, (60, 95), some 429), (450, (59, 96), some 430), (451, (59, 95), some 431),
    (452, (58, 96), some 432), (453, (58, 95), some 433), (454, (57, 96), some 434), (455, (57, 95), some 435),
    (512, (28, 96), none), (513, (28, 95), none), (514, (27, 96), none), (515, (27, 95), none), (516, (26, 96), none),
    (517, (26, 95), none), (518, (25, 96), some 478), (519, (25, 95), some 479), (576, (21, 94), some 536),
    (577, (21, 93), some 537), (578, (22, 94), some 538), (579, (22, 93), some 539), (580, (23, 94), some 540),
    (581, (23, 93), some 541), (582, (24, 94), some 542), (583, (24, 93), some 543), (640, (63, 94), some 600),
    (641, (63, 93), some 601), (642, (64, 94), some 602), (643, (64, 93), some 603), (644, (65, 94), some 604),
    (645, (65, 93), some 605), (646, (66, 94), some 606), (647, (66, 93), some 607), (704, (96, 92), none),
    (705, (96, 91), some 664), (706, (95, 92), none), (707, (95, 91), some 665), (708, (89, 92), some 673),
    (709, (89, 91), some 674), (710, (88, 92), some 675), (711, (88, 91), some 676), (768, (54, 92), some 738),
    (769, (54, 91), some 739), (770, (53, 92), some 740), (771, (53, 91), some 741), (772, (47, 92), some 747),
    (773, (47, 91), some 748), (774, (46, 92), some 749), (775, (46, 91), some 750), (832, (12, 92), some 812),
    (833, (12, 91), some 813), (834, (11, 92), some 814), (835, (11, 91), some 815), (836, (10, 92), some 816),
    (837, (10, 91), some 817), (838, (9, 92), some 818), (839, (9, 91), some 819), (896, (32, 89), some 881),
    (897, (33, 90), some 882), (898, (33, 89), some 883), (899, (34, 90), some 884), (900, (34, 89), some 885),
    (901, (35, 90), some 886), (902, (35, 89), some 887), (903, (36, 90), some 888), (960, (67, 90), some 950),
    (961, (67, 89), some 951), (962, (68, 90), some 952), (963, (68, 89), some 953), (964, (69, 90), some 954),
    (965, (69, 89), some 955), (966, (70, 89), some 957), (967, (71, 89), some 959), (2560, (96, 74), none),
    (2561, (96, 73), none), (2562, (97, 74), some 2562), (2563, (97, 73), some 2563), (2564, (98, 74), some 2564),
    (2565, (98, 73), some 2565), (2566, (99, 74), some 2566), (2567, (99, 73), some 2567), (2880, (89, 69), some 2880),
    (2881, (90, 69), some 2882), (2882, (91, 69), some 2884), (2883, (92, 69), some 2885), (2884, (93, 69), some 2886),
    (2885, (94, 69), some 2887), (2886, (95, 70), none), (2887, (95, 69), some 2888), (6720, (96, 30), none),
    (6721, (96, 29), none), (6722, (97, 30), some 6722), (6723, (97, 29), some 6723), (6724, (98, 30), some 6724),
    (6725, (98, 29), some 6725), (6726, (99, 30), some 6726), (6727, (99, 29), some 6727), (7040, (89, 25), some 7040),
    (7041, (90, 25), some 7042), (7042, (91, 25), some 7044), (7043, (92, 25), some 7045), (7044, (93, 25), some 7046),
    (7045, (94, 25), some 7047), (7046, (95, 26), none), (7047, (95, 25), some 7048)]

/-- Looks up some elements of a list, given in order. -/
def checkAt {α : Type} [DecidableEq α] : Nat → List α → List (Nat × α) → Bool
  | _, _, [] => true
  | _, [], _ :: _ => false
  | k, a :: as, (n, b) :: w => if n = k then decide (a = b) && checkAt (k + 1) as w else checkAt (k + 1) as ((n, b) :: w)

theorem checkAt_get {α : Type} [DecidableEq α] : ∀ (l : List α) (k : Nat) (w : List (Nat × α)), checkAt k l w = true →
    ∀ e ∈ w, k ≤ e.1 ∧ l[e.1 - k]? = some e.2
  | _, _, [], _, e, he => by cases he
  | [], _, _ :: _, h, _, _ => by rw [checkAt] at h; cases h
  | a :: as, k, (n, b) :: w, h, e, he => by
    rw [checkAt] at h
    split at h
    · rename_i hk
      rw [Bool.and_eq_true, decide_eq_true_eq] at h
      rcases List.mem_cons.1 he with rfl | he
      · refine ⟨by omega, ?_⟩
        rw [hk, Nat.sub_self, h.1]
        rfl
      · obtain ⟨h1, h2⟩ := checkAt_get as (k + 1) w h.2 e he
        refine ⟨by omega, ?_⟩
        rw [show e.1 - k = e.1 - (k + 1) + 1 by omega]
        exact h2
    · obtain ⟨h1, h2⟩ := checkAt_get as (k + 1) ((n, b) :: w) h e he
      refine ⟨by omega, ?_⟩
      rw [show e.1 - k = e.1 - (k + 1) + 1 by omega]
      exact h2

theorem tight_read_at : checkAt 0 ((zigzag 101).filter fun p => !quickFunction [6, 28, 50, 72, 92] 21 p.1 p.2)
    (tightTable.map fun e => (e.1, e.2.1)) = true := by decide +kernel

theorem tight_shown_at : checkAt 0 ((zigzag 101).filter fun p => !quickFunction [6, 28, 50, 72, 94] 21 p.1 p.2)
    ((0, (100, 100)) :: tightTable.filterMap fun e => e.2.2.map fun n => (n, e.2.1)) = true := by decide +kernel

set_option maxRecDepth 100000 in
theorem tight_fixed : correct_block tightBlock { bs := 144, dw := 116, ns := 4 } = .ok tightBlock := by decide +kernel

theorem tight_codeword : IsCodeword 28 tightBlock :=
  codeword_of_fixed (ecc := { bs := 144, dw := 116, ns := 4 }) (by decide +kernel) (by decide) (by decide) (by decide) tight_fixed

set_option maxRecDepth 100000 in
theorem tight_fails : correct_block tightRead { bs := 144, dw := 116, ns := 4 } = .error (.err .DataEcc) := by decide +kernel

theorem tight_blocks : Blocks 21 .L tightBlocks := by
  have hbc : blockCount 21 .L = 8 := by decide
  have he : ecLen 21 .L = 28 := by decide
  have key : ∀ i < 8, (tightBlocks i).length = dataLen 21 .L i + 28 := by decide +kernel
  intro i hi
  rw [hbc] at hi
  refine ⟨by rw [he]; exact key i hi, ?_⟩
  rw [he]
  unfold tightBlocks
  split
  · exact tight_codeword
  · exact codeword_zero _ _

/-- The codeword sequence. -/
def tightSequence : Nat → Byte := sequenceOf 21 .L tightBlocks

/-- The bit read by entry `e` of the table, if the mask pattern is 1. -/
def tightBit (e : Nat × (Nat × Nat) × Option Nat) : Bool :=
  match e.2.2 with
  | some n => (tightSequence (n / 8)).getMsbD (n % 8)
  | none => blank 21 e.2.1.1 e.2.1.2 ^^ maskCond 1 e.2.1.1 e.2.1.2

theorem tight_bits : ∀ e ∈ tightTable, tightBit e = (tightRead.getD (e.1 / 64) 0).getMsbD (e.1 % 8) ∧ e.1 % 64 < 8 ∧
    e.2.1 ≠ (100, 100) ∧ (∀ n, e.2.2 = some n → n < 9248) ∧
    (e.2.2 = none → isFunction 21 e.2.1.1 e.2.1.2 = true ∧ ∀ i, i < 15 → formatPos1 i ≠ e.2.1) := by decide +kernel

theorem tight_covers : ∀ j < 116, astray (8 * j) = true → ∀ i < 8, ∃ e ∈ tightTable, e.1 = 64 * j + i := by decide +kernel

theorem tight_rest : (∀ j < 116, astray (8 * j) = false → j ≠ 0 → tightSequence (8 * j) = tightRead.getD j 0) ∧
    (∀ j < 28, astray (932 + 8 * j) = false ∧ tightSequence (932 + 8 * j) = tightRead.getD (116 + j) 0) ∧
    (tightSequence 0) ^^^ 0x80#8 = tightRead.getD 0 0 ∧ astray 0 = false := by decide +kernel

set_option maxRecDepth 100000 in
theorem tight_data : bytesBits (dataCodewords 21 .L tightBlocks) =
    [Segment.byte (List.replicate 113 0x78)].flatMap (·.encode 21) ++ List.replicate 6532 false := by decide +kernel

end Rqrr
