/-!
# Model of src/version_db.rs
-/

namespace Rqrr

/-- `RSParameters` (src/version_db.rs:4-12): block size, data words, number of small blocks. -/
structure RSParameters where
  bs : Nat
  dw : Nat
  ns : Nat
  deriving DecidableEq, Repr

/-- `VersionInfo` (src/version_db.rs:14-20). The fixed-size arrays `[usize; 7]` and `[RSParameters; 4]` are lists. -/
structure VersionInfo where
  dataBytes : Nat
  apat : List Nat
  ecc : List RSParameters
  deriving DecidableEq, Repr

/-- `VERSION_DATA_BASE` (src/version_db.rs:22-1072), transcribed entry by entry (each entry cites its lines). -/
def VERSION_DATA_BASE : List VersionInfo := [
  /- version 0, lines 23-31 -/
  { dataBytes := 0, apat := [0, 0, 0, 0, 0, 0, 0],
    ecc := [⟨0, 0, 0⟩, ⟨0, 0, 0⟩, ⟨0, 0, 0⟩, ⟨0, 0, 0⟩] },
  /- version 1, lines 32-57 -/
  { dataBytes := 26, apat := [0, 0, 0, 0, 0, 0, 0],
    ecc := [⟨26, 16, 1⟩, ⟨26, 19, 1⟩, ⟨26, 9, 1⟩, ⟨26, 13, 1⟩] },
  /- version 2, lines 58-83 -/
  { dataBytes := 44, apat := [6, 18, 0, 0, 0, 0, 0],
    ecc := [⟨44, 28, 1⟩, ⟨44, 34, 1⟩, ⟨44, 16, 1⟩, ⟨44, 22, 1⟩] },
  /- version 3, lines 84-109 -/
  { dataBytes := 70, apat := [6, 22, 0, 0, 0, 0, 0],
    ecc := [⟨70, 44, 1⟩, ⟨70, 55, 1⟩, ⟨35, 13, 2⟩, ⟨35, 17, 2⟩] },
  /- version 4, lines 110-135 -/
  { dataBytes := 100, apat := [6, 26, 0, 0, 0, 0, 0],
    ecc := [⟨50, 32, 2⟩, ⟨100, 80, 1⟩, ⟨25, 9, 4⟩, ⟨50, 24, 2⟩] },
  /- version 5, lines 136-161 -/
  { dataBytes := 134, apat := [6, 30, 0, 0, 0, 0, 0],
    ecc := [⟨67, 43, 2⟩, ⟨134, 108, 1⟩, ⟨33, 11, 2⟩, ⟨33, 15, 2⟩] },
  /- version 6, lines 162-187 -/
  { dataBytes := 172, apat := [6, 34, 0, 0, 0, 0, 0],
    ecc := [⟨43, 27, 4⟩, ⟨86, 68, 2⟩, ⟨43, 15, 4⟩, ⟨43, 19, 4⟩] },
  /- version 7, lines 188-213 -/
  { dataBytes := 196, apat := [6, 22, 38, 0, 0, 0, 0],
    ecc := [⟨49, 31, 4⟩, ⟨98, 78, 2⟩, ⟨39, 13, 4⟩, ⟨32, 14, 2⟩] },
  /- version 8, lines 214-239 -/
  { dataBytes := 242, apat := [6, 24, 42, 0, 0, 0, 0],
    ecc := [⟨60, 38, 2⟩, ⟨121, 97, 2⟩, ⟨40, 14, 4⟩, ⟨40, 18, 4⟩] },
  /- version 9, lines 240-265 -/
  { dataBytes := 292, apat := [6, 26, 46, 0, 0, 0, 0],
    ecc := [⟨58, 36, 3⟩, ⟨146, 116, 2⟩, ⟨36, 12, 4⟩, ⟨36, 16, 4⟩] },
  /- version 10, lines 266-291 -/
  { dataBytes := 346, apat := [6, 28, 50, 0, 0, 0, 0],
    ecc := [⟨69, 43, 4⟩, ⟨86, 68, 2⟩, ⟨43, 15, 6⟩, ⟨43, 19, 6⟩] },
  /- version 11, lines 292-317 -/
  { dataBytes := 404, apat := [6, 30, 54, 0, 0, 0, 0],
    ecc := [⟨80, 50, 1⟩, ⟨101, 81, 4⟩, ⟨36, 12, 3⟩, ⟨50, 22, 4⟩] },
  /- version 12, lines 318-343 -/
  { dataBytes := 466, apat := [6, 32, 58, 0, 0, 0, 0],
    ecc := [⟨58, 36, 6⟩, ⟨116, 92, 2⟩, ⟨42, 14, 7⟩, ⟨46, 20, 4⟩] },
  /- version 13, lines 344-369 -/
  { dataBytes := 532, apat := [6, 34, 62, 0, 0, 0, 0],
    ecc := [⟨59, 37, 8⟩, ⟨133, 107, 4⟩, ⟨33, 11, 12⟩, ⟨44, 20, 8⟩] },
  /- version 14, lines 370-395 -/
  { dataBytes := 581, apat := [6, 26, 46, 66, 0, 0, 0],
    ecc := [⟨64, 40, 4⟩, ⟨145, 115, 3⟩, ⟨36, 12, 11⟩, ⟨36, 16, 11⟩] },
  /- version 15, lines 396-421 -/
  { dataBytes := 655, apat := [6, 26, 48, 70, 0, 0, 0],
    ecc := [⟨65, 41, 5⟩, ⟨109, 87, 5⟩, ⟨36, 12, 11⟩, ⟨54, 24, 5⟩] },
  /- version 16, lines 422-447 -/
  { dataBytes := 733, apat := [6, 26, 50, 74, 0, 0, 0],
    ecc := [⟨73, 45, 7⟩, ⟨122, 98, 5⟩, ⟨45, 15, 3⟩, ⟨43, 19, 15⟩] },
  /- version 17, lines 448-473 -/
  { dataBytes := 815, apat := [6, 30, 54, 78, 0, 0, 0],
    ecc := [⟨74, 46, 10⟩, ⟨135, 107, 1⟩, ⟨42, 14, 2⟩, ⟨50, 22, 1⟩] },
  /- version 18, lines 474-499 -/
  { dataBytes := 901, apat := [6, 30, 56, 82, 0, 0, 0],
    ecc := [⟨69, 43, 9⟩, ⟨150, 120, 5⟩, ⟨42, 14, 2⟩, ⟨50, 22, 17⟩] },
  /- version 19, lines 500-525 -/
  { dataBytes := 991, apat := [6, 30, 58, 86, 0, 0, 0],
    ecc := [⟨70, 44, 3⟩, ⟨141, 113, 3⟩, ⟨39, 13, 9⟩, ⟨47, 21, 17⟩] },
  /- version 20, lines 526-551 -/
  { dataBytes := 1085, apat := [6, 34, 62, 90, 0, 0, 0],
    ecc := [⟨67, 41, 3⟩, ⟨135, 107, 3⟩, ⟨43, 15, 15⟩, ⟨54, 24, 15⟩] },
  /- version 21, lines 552-577 -/
  { dataBytes := 1156, apat := [6, 28, 50, 72, 92, 0, 0],
    ecc := [⟨68, 42, 17⟩, ⟨144, 116, 4⟩, ⟨46, 16, 19⟩, ⟨50, 22, 17⟩] },
  /- version 22, lines 578-603 -/
  { dataBytes := 1258, apat := [6, 26, 50, 74, 98, 0, 0],
    ecc := [⟨74, 46, 17⟩, ⟨139, 111, 2⟩, ⟨37, 13, 34⟩, ⟨54, 24, 7⟩] },
  /- version 23, lines 604-629 -/
  { dataBytes := 1364, apat := [6, 30, 54, 78, 102, 0, 0],
    ecc := [⟨75, 47, 4⟩, ⟨151, 121, 4⟩, ⟨45, 15, 16⟩, ⟨54, 24, 11⟩] },
  /- version 24, lines 630-655 -/
  { dataBytes := 1474, apat := [6, 28, 54, 80, 106, 0, 0],
    ecc := [⟨73, 45, 6⟩, ⟨147, 117, 6⟩, ⟨46, 16, 30⟩, ⟨54, 24, 11⟩] },
  /- version 25, lines 656-681 -/
  { dataBytes := 1588, apat := [6, 32, 58, 84, 110, 0, 0],
    ecc := [⟨75, 47, 8⟩, ⟨132, 106, 8⟩, ⟨45, 15, 22⟩, ⟨54, 24, 7⟩] },
  /- version 26, lines 682-707 -/
  { dataBytes := 1706, apat := [6, 30, 58, 86, 114, 0, 0],
    ecc := [⟨74, 46, 19⟩, ⟨142, 114, 10⟩, ⟨46, 16, 33⟩, ⟨50, 22, 28⟩] },
  /- version 27, lines 708-733 -/
  { dataBytes := 1828, apat := [6, 34, 62, 90, 118, 0, 0],
    ecc := [⟨73, 45, 22⟩, ⟨152, 122, 8⟩, ⟨45, 15, 12⟩, ⟨53, 23, 8⟩] },
  /- version 28, lines 734-759 -/
  { dataBytes := 1921, apat := [6, 26, 50, 74, 98, 122, 0],
    ecc := [⟨73, 45, 3⟩, ⟨147, 117, 3⟩, ⟨45, 15, 11⟩, ⟨54, 24, 4⟩] },
  /- version 29, lines 760-785 -/
  { dataBytes := 2051, apat := [6, 30, 54, 78, 102, 126, 0],
    ecc := [⟨73, 45, 21⟩, ⟨146, 116, 7⟩, ⟨45, 15, 19⟩, ⟨53, 23, 1⟩] },
  /- version 30, lines 786-811 -/
  { dataBytes := 2185, apat := [6, 26, 52, 78, 104, 130, 0],
    ecc := [⟨75, 47, 19⟩, ⟨145, 115, 5⟩, ⟨45, 15, 23⟩, ⟨54, 24, 15⟩] },
  /- version 31, lines 812-837 -/
  { dataBytes := 2323, apat := [6, 30, 56, 82, 108, 134, 0],
    ecc := [⟨74, 46, 2⟩, ⟨145, 115, 13⟩, ⟨45, 15, 23⟩, ⟨54, 24, 42⟩] },
  /- version 32, lines 838-863 -/
  { dataBytes := 2465, apat := [6, 34, 60, 86, 112, 138, 0],
    ecc := [⟨74, 46, 10⟩, ⟨145, 115, 17⟩, ⟨45, 15, 19⟩, ⟨54, 24, 10⟩] },
  /- version 33, lines 864-889 -/
  { dataBytes := 2611, apat := [6, 30, 58, 86, 114, 142, 0],
    ecc := [⟨74, 46, 14⟩, ⟨145, 115, 17⟩, ⟨45, 15, 11⟩, ⟨54, 24, 29⟩] },
  /- version 34, lines 890-915 -/
  { dataBytes := 2761, apat := [6, 34, 62, 90, 118, 146, 0],
    ecc := [⟨74, 46, 14⟩, ⟨145, 115, 13⟩, ⟨46, 16, 59⟩, ⟨54, 24, 44⟩] },
  /- version 35, lines 916-941 -/
  { dataBytes := 2876, apat := [6, 30, 54, 78, 102, 126, 150],
    ecc := [⟨75, 47, 12⟩, ⟨151, 121, 12⟩, ⟨45, 15, 22⟩, ⟨54, 24, 39⟩] },
  /- version 36, lines 942-967 -/
  { dataBytes := 3034, apat := [6, 24, 50, 76, 102, 128, 154],
    ecc := [⟨75, 47, 6⟩, ⟨151, 121, 6⟩, ⟨45, 15, 2⟩, ⟨54, 24, 46⟩] },
  /- version 37, lines 968-993 -/
  { dataBytes := 3196, apat := [6, 28, 54, 80, 106, 132, 158],
    ecc := [⟨74, 46, 29⟩, ⟨152, 122, 17⟩, ⟨45, 15, 24⟩, ⟨54, 24, 49⟩] },
  /- version 38, lines 994-1019 -/
  { dataBytes := 3362, apat := [6, 32, 58, 84, 110, 136, 162],
    ecc := [⟨74, 46, 13⟩, ⟨152, 122, 4⟩, ⟨45, 15, 42⟩, ⟨54, 24, 48⟩] },
  /- version 39, lines 1020-1045 -/
  { dataBytes := 3532, apat := [6, 26, 54, 82, 110, 138, 166],
    ecc := [⟨75, 47, 40⟩, ⟨147, 117, 20⟩, ⟨45, 15, 10⟩, ⟨54, 24, 43⟩] },
  /- version 40, lines 1046-1071 -/
  { dataBytes := 3706, apat := [6, 30, 58, 86, 114, 142, 170],
    ecc := [⟨75, 47, 18⟩, ⟨148, 118, 19⟩, ⟨45, 15, 20⟩, ⟨54, 24, 34⟩] } ]

end Rqrr
