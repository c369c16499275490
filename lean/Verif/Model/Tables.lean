/-!
Lookup tables of `/repo/src/solver.rs`, copied entry by entry by a script.
Each Lean list has the entries of the Rust array in order; an entry is the value of the `u32`.
-/
namespace Verif.Tables

/-- `SELF_MASK`, src/solver.rs lines 534-544 (81 entries). -/
def selfMask : List Nat := [
  0x37e3f001, 0x37e3f002, 0x37e3f004, 0x371f8e08, 0x371f8e10, 0x371f8e20, 0x30fc7e40, 0x30fc7e80, 0x30fc7f00, 0x2fe003f8, 0x2fe005f8, 0x2fe009f8, 0x2f1c11c7, 0x2f1c21c7, 0x2f1c41c7, 0x28fc803f,
  0x28fd003f, 0x28fe003f, 0x1807f1f8, 0x180bf1f8, 0x1813f1f8, 0x18238fc7, 0x18438fc7, 0x18838fc7, 0x19007e3f, 0x1a007e3f, 0x1c007e3f, 0x37e3f001, 0x37e3f002, 0x37e3f004, 0x371f8e08, 0x371f8e10,
  0x371f8e20, 0x30fc7e40, 0x30fc7e80, 0x30fc7f00, 0x2fe003f8, 0x2fe005f8, 0x2fe009f8, 0x2f1c11c7, 0x2f1c21c7, 0x2f1c41c7, 0x28fc803f, 0x28fd003f, 0x28fe003f, 0x1807f1f8, 0x180bf1f8, 0x1813f1f8,
  0x18238fc7, 0x18438fc7, 0x18838fc7, 0x19007e3f, 0x1a007e3f, 0x1c007e3f, 0x37e3f001, 0x37e3f002, 0x37e3f004, 0x371f8e08, 0x371f8e10, 0x371f8e20, 0x30fc7e40, 0x30fc7e80, 0x30fc7f00, 0x2fe003f8,
  0x2fe005f8, 0x2fe009f8, 0x2f1c11c7, 0x2f1c21c7, 0x2f1c41c7, 0x28fc803f, 0x28fd003f, 0x28fe003f, 0x1807f1f8, 0x180bf1f8, 0x1813f1f8, 0x18238fc7, 0x18438fc7, 0x18838fc7, 0x19007e3f, 0x1a007e3f,
  0x1c007e3f
  ]

/-- `SHRINK_MASK`, src/solver.rs lines 659-676 (512 entries). -/
def shrinkMask : List Nat := [
  0, 1, 1, 1, 1, 1, 1, 1, 2, 3, 3, 3, 3, 3, 3, 3,
  2, 3, 3, 3, 3, 3, 3, 3, 2, 3, 3, 3, 3, 3, 3, 3,
  2, 3, 3, 3, 3, 3, 3, 3, 2, 3, 3, 3, 3, 3, 3, 3,
  2, 3, 3, 3, 3, 3, 3, 3, 2, 3, 3, 3, 3, 3, 3, 3,
  4, 5, 5, 5, 5, 5, 5, 5, 6, 7, 7, 7, 7, 7, 7, 7,
  6, 7, 7, 7, 7, 7, 7, 7, 6, 7, 7, 7, 7, 7, 7, 7,
  6, 7, 7, 7, 7, 7, 7, 7, 6, 7, 7, 7, 7, 7, 7, 7,
  6, 7, 7, 7, 7, 7, 7, 7, 6, 7, 7, 7, 7, 7, 7, 7,
  4, 5, 5, 5, 5, 5, 5, 5, 6, 7, 7, 7, 7, 7, 7, 7,
  6, 7, 7, 7, 7, 7, 7, 7, 6, 7, 7, 7, 7, 7, 7, 7,
  6, 7, 7, 7, 7, 7, 7, 7, 6, 7, 7, 7, 7, 7, 7, 7,
  6, 7, 7, 7, 7, 7, 7, 7, 6, 7, 7, 7, 7, 7, 7, 7,
  4, 5, 5, 5, 5, 5, 5, 5, 6, 7, 7, 7, 7, 7, 7, 7,
  6, 7, 7, 7, 7, 7, 7, 7, 6, 7, 7, 7, 7, 7, 7, 7,
  6, 7, 7, 7, 7, 7, 7, 7, 6, 7, 7, 7, 7, 7, 7, 7,
  6, 7, 7, 7, 7, 7, 7, 7, 6, 7, 7, 7, 7, 7, 7, 7,
  4, 5, 5, 5, 5, 5, 5, 5, 6, 7, 7, 7, 7, 7, 7, 7,
  6, 7, 7, 7, 7, 7, 7, 7, 6, 7, 7, 7, 7, 7, 7, 7,
  6, 7, 7, 7, 7, 7, 7, 7, 6, 7, 7, 7, 7, 7, 7, 7,
  6, 7, 7, 7, 7, 7, 7, 7, 6, 7, 7, 7, 7, 7, 7, 7,
  4, 5, 5, 5, 5, 5, 5, 5, 6, 7, 7, 7, 7, 7, 7, 7,
  6, 7, 7, 7, 7, 7, 7, 7, 6, 7, 7, 7, 7, 7, 7, 7,
  6, 7, 7, 7, 7, 7, 7, 7, 6, 7, 7, 7, 7, 7, 7, 7,
  6, 7, 7, 7, 7, 7, 7, 7, 6, 7, 7, 7, 7, 7, 7, 7,
  4, 5, 5, 5, 5, 5, 5, 5, 6, 7, 7, 7, 7, 7, 7, 7,
  6, 7, 7, 7, 7, 7, 7, 7, 6, 7, 7, 7, 7, 7, 7, 7,
  6, 7, 7, 7, 7, 7, 7, 7, 6, 7, 7, 7, 7, 7, 7, 7,
  6, 7, 7, 7, 7, 7, 7, 7, 6, 7, 7, 7, 7, 7, 7, 7,
  4, 5, 5, 5, 5, 5, 5, 5, 6, 7, 7, 7, 7, 7, 7, 7,
  6, 7, 7, 7, 7, 7, 7, 7, 6, 7, 7, 7, 7, 7, 7, 7,
  6, 7, 7, 7, 7, 7, 7, 7, 6, 7, 7, 7, 7, 7, 7, 7,
  6, 7, 7, 7, 7, 7, 7, 7, 6, 7, 7, 7, 7, 7, 7, 7
  ]

/-- `LOCKED_CANDIDATES_MASK_SAME_BAND`, src/solver.rs lines 679-744 (512 entries). -/
def sameBandMask : List Nat := [
  0, 0, 0, 0, 0, 0, 0, 0, 0, 0, 0, 0, 0, 0, 0, 0,
  0, 0, 0, 0, 0, 0, 0, 0, 0, 0, 0, 0, 0, 0, 0, 0,
  0, 0, 0, 0, 0, 0, 0, 0, 0, 0, 0, 0, 0, 0, 0, 0,
  0, 0, 0, 0, 0, 0, 0, 0, 0, 0, 0, 0, 0, 0, 0, 0,
  0, 0, 0, 0, 0, 0, 0, 0, 0, 0, 0, 0, 0, 0, 0, 0,
  0, 0, 0, 0, 0x1c71c0, 0x71c71c0, 0x1ff1c0, 0x71ff1c0, 0, 0, 0, 0, 0xfc71c0, 0x7fc71c0, 0x7fff1c0, 0x7fff1c0,
  0, 0, 0x1f8038, 0xff8038, 0, 0, 0x1ff038, 0xfff038, 0, 0, 0x71f8038, 0x7ff8038, 0, 0, 0x7fff038, 0x7fff038,
  0, 0, 0x1f81f8, 0x7ff81f8, 0x1c71f8, 0x7fc71f8, 0x1ff1f8, 0x7fff1f8, 0, 0, 0x71f81f8, 0x7ff81f8, 0xfc71f8, 0x7fc71f8, 0x7fff1f8, 0x7fff1f8,
  0, 0, 0, 0, 0, 0, 0, 0, 0, 0, 0, 0, 0xe00fc0, 0xe38fc0, 0x7e00fc0, 0x7e38fc0,
  0, 0, 0, 0, 0, 0, 0, 0, 0, 0, 0, 0, 0xfc0fc0, 0x7ff8fc0, 0x7fc0fc0, 0x7ff8fc0,
  0, 0xe38007, 0, 0xff8007, 0, 0xe38e07, 0, 0xff8e07, 0, 0xe381c7, 0, 0x7ff81c7, 0xe00fc7, 0xe38fc7, 0x7fc0fc7, 0x7ff8fc7,
  0, 0x7e38007, 0, 0x7ff8007, 0, 0x7ff8e07, 0, 0x7ff8e07, 0, 0x7e381c7, 0, 0x7ff81c7, 0xfc0fc7, 0x7ff8fc7, 0x7fc0fc7, 0x7ff8fc7,
  0, 0, 0, 0, 0, 0, 0, 0, 0, 0, 0, 0, 0xe07fc0, 0xe3ffc0, 0x7e3ffc0, 0x7e3ffc0,
  0, 0, 0, 0, 0x1c7fc0, 0x71fffc0, 0x1fffc0, 0x71fffc0, 0, 0, 0, 0, 0xfc7fc0, 0x7ffffc0, 0x7ffffc0, 0x7ffffc0,
  0, 0xe3803f, 0x1f803f, 0xff803f, 0, 0xe3fe3f, 0x1ffe3f, 0xfffe3f, 0, 0xe381ff, 0x71f81ff, 0x7ff81ff, 0xe07fff, 0xe3ffff, 0x7ffffff, 0x7ffffff,
  0, 0x7e381ff, 0x1f81ff, 0x7ff81ff, 0x1c7fff, 0x7ffffff, 0x1fffff, 0x7ffffff, 0, 0x7e381ff, 0x71f81ff, 0x7ff81ff, 0xfc7fff, 0x7ffffff, 0x7ffffff, 0x7ffffff,
  0, 0, 0, 0, 0, 0, 0, 0, 0, 0, 0x7000e38, 0x7007e38, 0, 0, 0x7e00e38, 0x7e07e38,
  0, 0x7007007, 0, 0x7007e07, 0, 0x71c7007, 0, 0x71c7e07, 0, 0x700703f, 0x7000e3f, 0x7007e3f, 0, 0x7fc703f, 0x7fc0e3f, 0x7fc7e3f,
  0, 0, 0, 0, 0, 0, 0, 0, 0, 0, 0x71c0e38, 0x7fc7e38, 0, 0, 0x7fc0e38, 0x7fc7e38,
  0, 0x7e07007, 0, 0x7fc7e07, 0, 0x7fc7007, 0, 0x7fc7e07, 0, 0x7e0703f, 0x71c0e3f, 0x7fc7e3f, 0, 0x7fc703f, 0x7fc0e3f, 0x7fc7e3f,
  0, 0, 0, 0, 0, 0, 0, 0, 0, 0, 0x7038e38, 0x703fe38, 0, 0, 0x7e3fe38, 0x7e3fe38,
  0, 0x70071c7, 0, 0x703ffc7, 0x1c71c7, 0x71c71c7, 0x1fffc7, 0x71fffc7, 0, 0x70071ff, 0x7038fff, 0x703ffff, 0xfc71ff, 0x7fc71ff, 0x7ffffff, 0x7ffffff,
  0, 0, 0x1f8e38, 0xfffe38, 0, 0, 0x1ffe38, 0xfffe38, 0, 0, 0x71f8e38, 0x7fffe38, 0, 0, 0x7fffe38, 0x7fffe38,
  0, 0x7e071ff, 0x1f8fff, 0x7ffffff, 0x1c71ff, 0x7fc71ff, 0x1fffff, 0x7ffffff, 0, 0x7e071ff, 0x71f8fff, 0x7ffffff, 0xfc71ff, 0x7fc71ff, 0x7ffffff, 0x7ffffff,
  0, 0, 0, 0, 0, 0, 0, 0, 0, 0, 0x7000ff8, 0x703fff8, 0xe00ff8, 0xe3fff8, 0x7e00ff8, 0x7e3fff8,
  0, 0x703f007, 0, 0x703fe07, 0, 0x71ffe07, 0, 0x71ffe07, 0, 0x703f1ff, 0x7000fff, 0x703ffff, 0xfc0fff, 0x7ffffff, 0x7fc0fff, 0x7ffffff,
  0, 0xe3f007, 0, 0xfffe07, 0, 0xe3fe07, 0, 0xfffe07, 0, 0xe3f1ff, 0x71c0fff, 0x7ffffff, 0xe00fff, 0xe3ffff, 0x7fc0fff, 0x7ffffff,
  0, 0x7e3f007, 0, 0x7fffe07, 0, 0x7fffe07, 0, 0x7fffe07, 0, 0x7e3f1ff, 0x71c0fff, 0x7ffffff, 0xfc0fff, 0x7ffffff, 0x7fc0fff, 0x7ffffff,
  0, 0, 0, 0, 0, 0, 0, 0, 0, 0, 0x7038ff8, 0x703fff8, 0xe07ff8, 0xe3fff8, 0x7e3fff8, 0x7e3fff8,
  0, 0x703f1c7, 0, 0x703ffc7, 0x1c7fc7, 0x71fffc7, 0x1fffc7, 0x71fffc7, 0, 0x703f1ff, 0x7038fff, 0x703ffff, 0xfc7fff, 0x7ffffff, 0x7ffffff, 0x7ffffff,
  0, 0xe3f03f, 0x1f8e3f, 0xfffe3f, 0, 0xe3fe3f, 0x1ffe3f, 0xfffe3f, 0, 0xe3f1ff, 0x71f8fff, 0x7ffffff, 0xe07fff, 0xe3ffff, 0x7ffffff, 0x7ffffff,
  0, 0x7e3f1ff, 0x1f8fff, 0x7ffffff, 0x1c7fff, 0x7ffffff, 0x1fffff, 0x7ffffff, 0, 0x7e3f1ff, 0x71f8fff, 0x7ffffff, 0xfc7fff, 0x7ffffff, 0x7ffffff, 0x7ffffff
  ]

/-- `LOCKED_CANDIDATES_MASK_NEIGHBOR_BAND`, src/solver.rs lines 747-812 (512 entries). -/
def neighborBandMask : List Nat := [
  0x7ffffff, 0x7fbfdfe, 0x7f7fbfd, 0x7ffffff, 0x7eff7fb, 0x7ffffff, 0x7ffffff, 0x7ffffff, 0x7dfeff7, 0x7dbedf6, 0x7d7ebf5, 0x7dfeff7, 0x7cfe7f3, 0x7dfeff7, 0x7dfeff7, 0x7dfeff7,
  0x7bfdfef, 0x7bbddee, 0x7b7dbed, 0x7bfdfef, 0x7afd7eb, 0x7bfdfef, 0x7bfdfef, 0x7bfdfef, 0x7ffffff, 0x7fbfdfe, 0x7f7fbfd, 0x7ffffff, 0x7eff7fb, 0x7ffffff, 0x7ffffff, 0x7ffffff,
  0x77fbfdf, 0x77bbdde, 0x777bbdd, 0x77fbfdf, 0x76fb7db, 0x77fbfdf, 0x77fbfdf, 0x77fbfdf, 0x7ffffff, 0x7fbfdfe, 0x7f7fbfd, 0x7ffffff, 0x7eff7fb, 0x7ffffff, 0x7ffffff, 0x7ffffff,
  0x7ffffff, 0x7fbfdfe, 0x7f7fbfd, 0x7ffffff, 0x7eff7fb, 0x7ffffff, 0x7ffffff, 0x7ffffff, 0x7ffffff, 0x7fbfdfe, 0x7f7fbfd, 0x7ffffff, 0x7eff7fb, 0x7ffffff, 0x7ffffff, 0x7ffffff,
  0x6ff7fbf, 0x6fb7dbe, 0x6f77bbd, 0x6ff7fbf, 0x6ef77bb, 0x6ff7fbf, 0x6ff7fbf, 0x6ff7fbf, 0x6df6fb7, 0x6db6db6, 0x6d76bb5, 0x6df6fb7, 0x6cf67b3, 0x6df6fb7, 0x6df6fb7, 0x6df6fb7,
  0x6bf5faf, 0x6bb5dae, 0x6b75bad, 0x6bf5faf, 0x6af57ab, 0x6bf5faf, 0x6bf5faf, 0x6bf5faf, 0x6ff7fbf, 0x6fb7dbe, 0x6f77bbd, 0x6ff7fbf, 0x6ef77bb, 0x6ff7fbf, 0x6ff7fbf, 0x6ff7fbf,
  0x67f3f9f, 0x67b3d9e, 0x6773b9d, 0x67f3f9f, 0x66f379b, 0x67f3f9f, 0x67f3f9f, 0x67f3f9f, 0x6ff7fbf, 0x6fb7dbe, 0x6f77bbd, 0x6ff7fbf, 0x6ef77bb, 0x6ff7fbf, 0x6ff7fbf, 0x6ff7fbf,
  0x6ff7fbf, 0x6fb7dbe, 0x6f77bbd, 0x6ff7fbf, 0x6ef77bb, 0x6ff7fbf, 0x6ff7fbf, 0x6ff7fbf, 0x6ff7fbf, 0x6fb7dbe, 0x6f77bbd, 0x6ff7fbf, 0x6ef77bb, 0x6ff7fbf, 0x6ff7fbf, 0x6ff7fbf,
  0x5feff7f, 0x5fafd7e, 0x5f6fb7d, 0x5feff7f, 0x5eef77b, 0x5feff7f, 0x5feff7f, 0x5feff7f, 0x5deef77, 0x5daed76, 0x5d6eb75, 0x5deef77, 0x5cee773, 0x5deef77, 0x5deef77, 0x5deef77,
  0x5bedf6f, 0x5badd6e, 0x5b6db6d, 0x5bedf6f, 0x5aed76b, 0x5bedf6f, 0x5bedf6f, 0x5bedf6f, 0x5feff7f, 0x5fafd7e, 0x5f6fb7d, 0x5feff7f, 0x5eef77b, 0x5feff7f, 0x5feff7f, 0x5feff7f,
  0x57ebf5f, 0x57abd5e, 0x576bb5d, 0x57ebf5f, 0x56eb75b, 0x57ebf5f, 0x57ebf5f, 0x57ebf5f, 0x5feff7f, 0x5fafd7e, 0x5f6fb7d, 0x5feff7f, 0x5eef77b, 0x5feff7f, 0x5feff7f, 0x5feff7f,
  0x5feff7f, 0x5fafd7e, 0x5f6fb7d, 0x5feff7f, 0x5eef77b, 0x5feff7f, 0x5feff7f, 0x5feff7f, 0x5feff7f, 0x5fafd7e, 0x5f6fb7d, 0x5feff7f, 0x5eef77b, 0x5feff7f, 0x5feff7f, 0x5feff7f,
  0x7ffffff, 0x7fbfdfe, 0x7f7fbfd, 0x7ffffff, 0x7eff7fb, 0x7ffffff, 0x7ffffff, 0x7ffffff, 0x7dfeff7, 0x7dbedf6, 0x7d7ebf5, 0x7dfeff7, 0x7cfe7f3, 0x7dfeff7, 0x7dfeff7, 0x7dfeff7,
  0x7bfdfef, 0x7bbddee, 0x7b7dbed, 0x7bfdfef, 0x7afd7eb, 0x7bfdfef, 0x7bfdfef, 0x7bfdfef, 0x7ffffff, 0x7fbfdfe, 0x7f7fbfd, 0x7ffffff, 0x7eff7fb, 0x7ffffff, 0x7ffffff, 0x7ffffff,
  0x77fbfdf, 0x77bbdde, 0x777bbdd, 0x77fbfdf, 0x76fb7db, 0x77fbfdf, 0x77fbfdf, 0x77fbfdf, 0x7ffffff, 0x7fbfdfe, 0x7f7fbfd, 0x7ffffff, 0x7eff7fb, 0x7ffffff, 0x7ffffff, 0x7ffffff,
  0x7ffffff, 0x7fbfdfe, 0x7f7fbfd, 0x7ffffff, 0x7eff7fb, 0x7ffffff, 0x7ffffff, 0x7ffffff, 0x7ffffff, 0x7fbfdfe, 0x7f7fbfd, 0x7ffffff, 0x7eff7fb, 0x7ffffff, 0x7ffffff, 0x7ffffff,
  0x3fdfeff, 0x3f9fcfe, 0x3f5fafd, 0x3fdfeff, 0x3edf6fb, 0x3fdfeff, 0x3fdfeff, 0x3fdfeff, 0x3ddeef7, 0x3d9ecf6, 0x3d5eaf5, 0x3ddeef7, 0x3cde6f3, 0x3ddeef7, 0x3ddeef7, 0x3ddeef7,
  0x3bddeef, 0x3b9dcee, 0x3b5daed, 0x3bddeef, 0x3add6eb, 0x3bddeef, 0x3bddeef, 0x3bddeef, 0x3fdfeff, 0x3f9fcfe, 0x3f5fafd, 0x3fdfeff, 0x3edf6fb, 0x3fdfeff, 0x3fdfeff, 0x3fdfeff,
  0x37dbedf, 0x379bcde, 0x375badd, 0x37dbedf, 0x36db6db, 0x37dbedf, 0x37dbedf, 0x37dbedf, 0x3fdfeff, 0x3f9fcfe, 0x3f5fafd, 0x3fdfeff, 0x3edf6fb, 0x3fdfeff, 0x3fdfeff, 0x3fdfeff,
  0x3fdfeff, 0x3f9fcfe, 0x3f5fafd, 0x3fdfeff, 0x3edf6fb, 0x3fdfeff, 0x3fdfeff, 0x3fdfeff, 0x3fdfeff, 0x3f9fcfe, 0x3f5fafd, 0x3fdfeff, 0x3edf6fb, 0x3fdfeff, 0x3fdfeff, 0x3fdfeff,
  0x7ffffff, 0x7fbfdfe, 0x7f7fbfd, 0x7ffffff, 0x7eff7fb, 0x7ffffff, 0x7ffffff, 0x7ffffff, 0x7dfeff7, 0x7dbedf6, 0x7d7ebf5, 0x7dfeff7, 0x7cfe7f3, 0x7dfeff7, 0x7dfeff7, 0x7dfeff7,
  0x7bfdfef, 0x7bbddee, 0x7b7dbed, 0x7bfdfef, 0x7afd7eb, 0x7bfdfef, 0x7bfdfef, 0x7bfdfef, 0x7ffffff, 0x7fbfdfe, 0x7f7fbfd, 0x7ffffff, 0x7eff7fb, 0x7ffffff, 0x7ffffff, 0x7ffffff,
  0x77fbfdf, 0x77bbdde, 0x777bbdd, 0x77fbfdf, 0x76fb7db, 0x77fbfdf, 0x77fbfdf, 0x77fbfdf, 0x7ffffff, 0x7fbfdfe, 0x7f7fbfd, 0x7ffffff, 0x7eff7fb, 0x7ffffff, 0x7ffffff, 0x7ffffff,
  0x7ffffff, 0x7fbfdfe, 0x7f7fbfd, 0x7ffffff, 0x7eff7fb, 0x7ffffff, 0x7ffffff, 0x7ffffff, 0x7ffffff, 0x7fbfdfe, 0x7f7fbfd, 0x7ffffff, 0x7eff7fb, 0x7ffffff, 0x7ffffff, 0x7ffffff,
  0x7ffffff, 0x7fbfdfe, 0x7f7fbfd, 0x7ffffff, 0x7eff7fb, 0x7ffffff, 0x7ffffff, 0x7ffffff, 0x7dfeff7, 0x7dbedf6, 0x7d7ebf5, 0x7dfeff7, 0x7cfe7f3, 0x7dfeff7, 0x7dfeff7, 0x7dfeff7,
  0x7bfdfef, 0x7bbddee, 0x7b7dbed, 0x7bfdfef, 0x7afd7eb, 0x7bfdfef, 0x7bfdfef, 0x7bfdfef, 0x7ffffff, 0x7fbfdfe, 0x7f7fbfd, 0x7ffffff, 0x7eff7fb, 0x7ffffff, 0x7ffffff, 0x7ffffff,
  0x77fbfdf, 0x77bbdde, 0x777bbdd, 0x77fbfdf, 0x76fb7db, 0x77fbfdf, 0x77fbfdf, 0x77fbfdf, 0x7ffffff, 0x7fbfdfe, 0x7f7fbfd, 0x7ffffff, 0x7eff7fb, 0x7ffffff, 0x7ffffff, 0x7ffffff,
  0x7ffffff, 0x7fbfdfe, 0x7f7fbfd, 0x7ffffff, 0x7eff7fb, 0x7ffffff, 0x7ffffff, 0x7ffffff, 0x7ffffff, 0x7fbfdfe, 0x7f7fbfd, 0x7ffffff, 0x7eff7fb, 0x7ffffff, 0x7ffffff, 0x7ffffff,
  0x7ffffff, 0x7fbfdfe, 0x7f7fbfd, 0x7ffffff, 0x7eff7fb, 0x7ffffff, 0x7ffffff, 0x7ffffff, 0x7dfeff7, 0x7dbedf6, 0x7d7ebf5, 0x7dfeff7, 0x7cfe7f3, 0x7dfeff7, 0x7dfeff7, 0x7dfeff7,
  0x7bfdfef, 0x7bbddee, 0x7b7dbed, 0x7bfdfef, 0x7afd7eb, 0x7bfdfef, 0x7bfdfef, 0x7bfdfef, 0x7ffffff, 0x7fbfdfe, 0x7f7fbfd, 0x7ffffff, 0x7eff7fb, 0x7ffffff, 0x7ffffff, 0x7ffffff,
  0x77fbfdf, 0x77bbdde, 0x777bbdd, 0x77fbfdf, 0x76fb7db, 0x77fbfdf, 0x77fbfdf, 0x77fbfdf, 0x7ffffff, 0x7fbfdfe, 0x7f7fbfd, 0x7ffffff, 0x7eff7fb, 0x7ffffff, 0x7ffffff, 0x7ffffff,
  0x7ffffff, 0x7fbfdfe, 0x7f7fbfd, 0x7ffffff, 0x7eff7fb, 0x7ffffff, 0x7ffffff, 0x7ffffff, 0x7ffffff, 0x7fbfdfe, 0x7f7fbfd, 0x7ffffff, 0x7eff7fb, 0x7ffffff, 0x7ffffff, 0x7ffffff
  ]

/-- `LOCKED_MINIROWS`, src/solver.rs lines 815-848 (512 entries). -/
def lockedMinirows : List Nat := [
  0, 0, 0, 0, 0, 0, 0, 0, 0, 0, 0, 0, 0, 0, 0, 0,
  0, 0, 0, 0, 0, 0, 0, 0, 0, 0, 0, 0, 0, 0, 0, 0,
  0, 0, 0, 0, 0, 0, 0, 0, 0, 0, 0, 0, 0, 0, 0, 0,
  0, 0, 0, 0, 0, 0, 0, 0, 0, 0, 0, 0, 0, 0, 0, 0,
  0, 0, 0, 0, 0, 0, 0, 0, 0, 0, 0, 0, 0, 0, 0, 0,
  0, 0, 0, 0, 0x54, 0x54, 0x54, 0x54, 0, 0, 0, 0, 0x54, 0x54, 0x54, 0x54,
  0, 0, 0x62, 0x62, 0, 0, 0x62, 0x62, 0, 0, 0x62, 0x62, 0, 0, 0x62, 0x62,
  0, 0, 0x62, 0x62, 0x54, 0x54, 0x40, 0x40, 0, 0, 0x62, 0x62, 0x54, 0x54, 0x40, 0x40,
  0, 0, 0, 0, 0, 0, 0, 0, 0, 0, 0, 0, 0x8c, 0x8c, 0x8c, 0x8c,
  0, 0, 0, 0, 0, 0, 0, 0, 0, 0, 0, 0, 0x8c, 0x8c, 0x8c, 0x8c,
  0, 0xa1, 0, 0xa1, 0, 0xa1, 0, 0xa1, 0, 0xa1, 0, 0xa1, 0x8c, 0x80, 0x8c, 0x80,
  0, 0xa1, 0, 0xa1, 0, 0xa1, 0, 0xa1, 0, 0xa1, 0, 0xa1, 0x8c, 0x80, 0x8c, 0x80,
  0, 0, 0, 0, 0, 0, 0, 0, 0, 0, 0, 0, 0x8c, 0x8c, 0x8c, 0x8c,
  0, 0, 0, 0, 0x54, 0x54, 0x54, 0x54, 0, 0, 0, 0, 4, 4, 4, 4,
  0, 0xa1, 0x62, 0x20, 0, 0xa1, 0x62, 0x20, 0, 0xa1, 0x62, 0x20, 0x8c, 0x80, 0, 0,
  0, 0xa1, 0x62, 0x20, 0x54, 0, 0x40, 0, 0, 0xa1, 0x62, 0x20, 4, 0, 0, 0,
  0, 0, 0, 0, 0, 0, 0, 0, 0, 0, 0x10a, 0x10a, 0, 0, 0x10a, 0x10a,
  0, 0x111, 0, 0x111, 0, 0x111, 0, 0x111, 0, 0x111, 0x10a, 0x100, 0, 0x111, 0x10a, 0x100,
  0, 0, 0, 0, 0, 0, 0, 0, 0, 0, 0x10a, 0x10a, 0, 0, 0x10a, 0x10a,
  0, 0x111, 0, 0x111, 0, 0x111, 0, 0x111, 0, 0x111, 0x10a, 0x100, 0, 0x111, 0x10a, 0x100,
  0, 0, 0, 0, 0, 0, 0, 0, 0, 0, 0x10a, 0x10a, 0, 0, 0x10a, 0x10a,
  0, 0x111, 0, 0x111, 0x54, 0x10, 0x54, 0x10, 0, 0x111, 0x10a, 0x100, 0x54, 0x10, 0, 0,
  0, 0, 0x62, 0x62, 0, 0, 0x62, 0x62, 0, 0, 2, 2, 0, 0, 2, 2,
  0, 0x111, 0x62, 0, 0x54, 0x10, 0x40, 0, 0, 0x111, 2, 0, 0x54, 0x10, 0, 0,
  0, 0, 0, 0, 0, 0, 0, 0, 0, 0, 0x10a, 0x10a, 0x8c, 0x8c, 8, 8,
  0, 0x111, 0, 0x111, 0, 0x111, 0, 0x111, 0, 0x111, 0x10a, 0x100, 0x8c, 0, 8, 0,
  0, 0xa1, 0, 0xa1, 0, 0xa1, 0, 0xa1, 0, 0xa1, 0x10a, 0, 0x8c, 0x80, 8, 0,
  0, 1, 0, 1, 0, 1, 0, 1, 0, 1, 0x10a, 0, 0x8c, 0, 8, 0,
  0, 0, 0, 0, 0, 0, 0, 0, 0, 0, 0x10a, 0x10a, 0x8c, 0x8c, 8, 8,
  0, 0x111, 0, 0x111, 0x54, 0x10, 0x54, 0x10, 0, 0x111, 0x10a, 0x100, 4, 0, 0, 0,
  0, 0xa1, 0x62, 0x20, 0, 0xa1, 0x62, 0x20, 0, 0xa1, 2, 0, 0x8c, 0x80, 0, 0,
  0, 1, 0x62, 0, 0x54, 0, 0x40, 0, 0, 1, 2, 0, 4, 0, 0, 0
  ]

/-- `COLUMN_SINGLE`, src/solver.rs lines 851-884 (512 entries). -/
def columnSingle : List Nat := [
  0, 0, 0, 0, 0, 0, 0, 0, 0, 0, 0, 0, 0, 0, 0, 0,
  0, 0, 0, 0, 0, 0, 0, 0, 0, 0, 0, 0, 0, 0, 0, 0,
  0, 0, 0, 0, 0, 0, 0, 0, 0, 0, 0, 0, 0, 0, 0, 0,
  0, 0, 0, 0, 0, 0, 0, 0, 0, 0, 0, 0, 0, 0, 0, 0,
  0, 0, 0, 0, 0, 0, 0, 0, 0, 0x1ff, 0x1ff, 0x1b6, 0x1ff, 0x1b6, 0x1b6, 0x1b6,
  0, 0x1ff, 0x1ff, 0x1b6, 0x1ff, 0x1b6, 0x1b6, 0x1b6, 0, 0x16d, 0x16d, 0x124, 0x16d, 0x124, 0x124, 0x124,
  0, 0x1ff, 0x1ff, 0x1b6, 0x1ff, 0x1b6, 0x1b6, 0x1b6, 0, 0x16d, 0x16d, 0x124, 0x16d, 0x124, 0x124, 0x124,
  0, 0x16d, 0x16d, 0x124, 0x16d, 0x124, 0x124, 0x124, 0, 0x16d, 0x16d, 0x124, 0x16d, 0x124, 0x124, 0x124,
  0, 0, 0, 0, 0, 0, 0, 0, 0, 0x1ff, 0x1ff, 0x1b6, 0x1ff, 0x1b6, 0x1b6, 0x1b6,
  0, 0x1ff, 0x1ff, 0x1b6, 0x1ff, 0x1b6, 0x1b6, 0x1b6, 0, 0x16d, 0x16d, 0x124, 0x16d, 0x124, 0x124, 0x124,
  0, 0x1ff, 0x1ff, 0x1b6, 0x1ff, 0x1b6, 0x1b6, 0x1b6, 0, 0x16d, 0x16d, 0x124, 0x16d, 0x124, 0x124, 0x124,
  0, 0x16d, 0x16d, 0x124, 0x16d, 0x124, 0x124, 0x124, 0, 0x16d, 0x16d, 0x124, 0x16d, 0x124, 0x124, 0x124,
  0, 0, 0, 0, 0, 0, 0, 0, 0, 0xdb, 0xdb, 0x92, 0xdb, 0x92, 0x92, 0x92,
  0, 0xdb, 0xdb, 0x92, 0xdb, 0x92, 0x92, 0x92, 0, 0x49, 0x49, 0, 0x49, 0, 0, 0,
  0, 0xdb, 0xdb, 0x92, 0xdb, 0x92, 0x92, 0x92, 0, 0x49, 0x49, 0, 0x49, 0, 0, 0,
  0, 0x49, 0x49, 0, 0x49, 0, 0, 0, 0, 0x49, 0x49, 0, 0x49, 0, 0, 0,
  0, 0, 0, 0, 0, 0, 0, 0, 0, 0x1ff, 0x1ff, 0x1b6, 0x1ff, 0x1b6, 0x1b6, 0x1b6,
  0, 0x1ff, 0x1ff, 0x1b6, 0x1ff, 0x1b6, 0x1b6, 0x1b6, 0, 0x16d, 0x16d, 0x124, 0x16d, 0x124, 0x124, 0x124,
  0, 0x1ff, 0x1ff, 0x1b6, 0x1ff, 0x1b6, 0x1b6, 0x1b6, 0, 0x16d, 0x16d, 0x124, 0x16d, 0x124, 0x124, 0x124,
  0, 0x16d, 0x16d, 0x124, 0x16d, 0x124, 0x124, 0x124, 0, 0x16d, 0x16d, 0x124, 0x16d, 0x124, 0x124, 0x124,
  0, 0, 0, 0, 0, 0, 0, 0, 0, 0xdb, 0xdb, 0x92, 0xdb, 0x92, 0x92, 0x92,
  0, 0xdb, 0xdb, 0x92, 0xdb, 0x92, 0x92, 0x92, 0, 0x49, 0x49, 0, 0x49, 0, 0, 0,
  0, 0xdb, 0xdb, 0x92, 0xdb, 0x92, 0x92, 0x92, 0, 0x49, 0x49, 0, 0x49, 0, 0, 0,
  0, 0x49, 0x49, 0, 0x49, 0, 0, 0, 0, 0x49, 0x49, 0, 0x49, 0, 0, 0,
  0, 0, 0, 0, 0, 0, 0, 0, 0, 0xdb, 0xdb, 0x92, 0xdb, 0x92, 0x92, 0x92,
  0, 0xdb, 0xdb, 0x92, 0xdb, 0x92, 0x92, 0x92, 0, 0x49, 0x49, 0, 0x49, 0, 0, 0,
  0, 0xdb, 0xdb, 0x92, 0xdb, 0x92, 0x92, 0x92, 0, 0x49, 0x49, 0, 0x49, 0, 0, 0,
  0, 0x49, 0x49, 0, 0x49, 0, 0, 0, 0, 0x49, 0x49, 0, 0x49, 0, 0, 0,
  0, 0, 0, 0, 0, 0, 0, 0, 0, 0xdb, 0xdb, 0x92, 0xdb, 0x92, 0x92, 0x92,
  0, 0xdb, 0xdb, 0x92, 0xdb, 0x92, 0x92, 0x92, 0, 0x49, 0x49, 0, 0x49, 0, 0, 0,
  0, 0xdb, 0xdb, 0x92, 0xdb, 0x92, 0x92, 0x92, 0, 0x49, 0x49, 0, 0x49, 0, 0, 0,
  0, 0x49, 0x49, 0, 0x49, 0, 0, 0, 0, 0x49, 0x49, 0, 0x49, 0, 0, 0
  ]

/-- `ROW_MASK`, src/solver.rs lines 625-628 (8 entries). -/
def rowMask : List Nat := [
  0, 0x1ff, 0x3fe00, 0x3ffff, 0x7fc0000, 0x7fc01ff, 0x7fffe00, 0x7ffffff
  ]

/-- `NEIGHBOR_SUBBANDS`, src/solver.rs lines 638-648 (27 entries). -/
def neighborSubbands : List (Nat × Nat) := [
  (1, 2), (2, 0), (0, 1), (4, 5), (5, 3), (3, 4), (7, 8), (8, 6), (6, 7), (10, 11), (11, 9), (9, 10), (13, 14), (14, 12), (12, 13), (16, 17), (17, 15), (15, 16), (19, 20), (20, 18), (18, 19), (22, 23), (23, 21), (21, 22), (25, 26), (26, 24), (24, 25)]

end Verif.Tables
