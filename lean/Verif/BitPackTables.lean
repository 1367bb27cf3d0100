import Verif.BitPackModel

/-!
# Transcription of the 126 straight-line functions of theta/bit_packing.go

Each statement `dst[d] = uintW(((src[s] >> r) & mask) << sh)` (or `|=`) of the Go file is one entry
`⟨isAssign, d, s, r, mask, sh⟩`; a missing shift or mask is written as shift 0 / mask of all ones.
This file was produced by a mechanical line-by-line translation of the Go text.
-/

namespace Verif.BitPack

/-- all ones: no mask in the Go text -/
def F : Nat := 18446744073709551615

/-- `packBits1` bit_packing.go l.92-101 -/
def pack1 : List Stmt := [
  ⟨true, 0, 0, 0, F, 7⟩, ⟨false, 0, 1, 0, F, 6⟩, ⟨false, 0, 2, 0, F, 5⟩, ⟨false, 0, 3, 0, F, 4⟩,
  ⟨false, 0, 4, 0, F, 3⟩, ⟨false, 0, 5, 0, F, 2⟩, ⟨false, 0, 6, 0, F, 1⟩, ⟨false, 0, 7, 0, F, 0⟩]

/-- `packBits2` bit_packing.go l.103-113 -/
def pack2 : List Stmt := [
  ⟨true, 0, 0, 0, F, 6⟩, ⟨false, 0, 1, 0, F, 4⟩, ⟨false, 0, 2, 0, F, 2⟩, ⟨false, 0, 3, 0, F, 0⟩,
  ⟨true, 1, 4, 0, F, 6⟩, ⟨false, 1, 5, 0, F, 4⟩, ⟨false, 1, 6, 0, F, 2⟩, ⟨false, 1, 7, 0, F, 0⟩]

/-- `packBits3` bit_packing.go l.115-128 -/
def pack3 : List Stmt := [
  ⟨true, 0, 0, 0, F, 5⟩, ⟨false, 0, 1, 0, F, 2⟩, ⟨false, 0, 2, 1, F, 0⟩, ⟨true, 1, 2, 0, F, 7⟩,
  ⟨false, 1, 3, 0, F, 4⟩, ⟨false, 1, 4, 0, F, 1⟩, ⟨false, 1, 5, 2, F, 0⟩, ⟨true, 2, 5, 0, F, 6⟩,
  ⟨false, 2, 6, 0, F, 3⟩, ⟨false, 2, 7, 0, F, 0⟩]

/-- `packBits4` bit_packing.go l.130-142 -/
def pack4 : List Stmt := [
  ⟨true, 0, 0, 0, F, 4⟩, ⟨false, 0, 1, 0, F, 0⟩, ⟨true, 1, 2, 0, F, 4⟩, ⟨false, 1, 3, 0, F, 0⟩,
  ⟨true, 2, 4, 0, F, 4⟩, ⟨false, 2, 5, 0, F, 0⟩, ⟨true, 3, 6, 0, F, 4⟩, ⟨false, 3, 7, 0, F, 0⟩]

/-- `packBits5` bit_packing.go l.144-161 -/
def pack5 : List Stmt := [
  ⟨true, 0, 0, 0, F, 3⟩, ⟨false, 0, 1, 2, F, 0⟩, ⟨true, 1, 1, 0, F, 6⟩, ⟨false, 1, 2, 0, F, 1⟩,
  ⟨false, 1, 3, 4, F, 0⟩, ⟨true, 2, 3, 0, F, 4⟩, ⟨false, 2, 4, 1, F, 0⟩, ⟨true, 3, 4, 0, F, 7⟩,
  ⟨false, 3, 5, 0, F, 2⟩, ⟨false, 3, 6, 3, F, 0⟩, ⟨true, 4, 6, 0, F, 5⟩, ⟨false, 4, 7, 0, F, 0⟩]

/-- `packBits6` bit_packing.go l.163-181 -/
def pack6 : List Stmt := [
  ⟨true, 0, 0, 0, F, 2⟩, ⟨false, 0, 1, 4, F, 0⟩, ⟨true, 1, 1, 0, F, 4⟩, ⟨false, 1, 2, 2, F, 0⟩,
  ⟨true, 2, 2, 0, F, 6⟩, ⟨false, 2, 3, 0, F, 0⟩, ⟨true, 3, 4, 0, F, 2⟩, ⟨false, 3, 5, 4, F, 0⟩,
  ⟨true, 4, 5, 0, F, 4⟩, ⟨false, 4, 6, 2, F, 0⟩, ⟨true, 5, 6, 0, F, 6⟩, ⟨false, 5, 7, 0, F, 0⟩]

/-- `packBits7` bit_packing.go l.183-204 -/
def pack7 : List Stmt := [
  ⟨true, 0, 0, 0, F, 1⟩, ⟨false, 0, 1, 6, F, 0⟩, ⟨true, 1, 1, 0, F, 2⟩, ⟨false, 1, 2, 5, F, 0⟩,
  ⟨true, 2, 2, 0, F, 3⟩, ⟨false, 2, 3, 4, F, 0⟩, ⟨true, 3, 3, 0, F, 4⟩, ⟨false, 3, 4, 3, F, 0⟩,
  ⟨true, 4, 4, 0, F, 5⟩, ⟨false, 4, 5, 2, F, 0⟩, ⟨true, 5, 5, 0, F, 6⟩, ⟨false, 5, 6, 1, F, 0⟩,
  ⟨true, 6, 6, 0, F, 7⟩, ⟨false, 6, 7, 0, F, 0⟩]

/-- `packBits8` bit_packing.go l.206-215 -/
def pack8 : List Stmt := [
  ⟨true, 0, 0, 0, F, 0⟩, ⟨true, 1, 1, 0, F, 0⟩, ⟨true, 2, 2, 0, F, 0⟩, ⟨true, 3, 3, 0, F, 0⟩,
  ⟨true, 4, 4, 0, F, 0⟩, ⟨true, 5, 5, 0, F, 0⟩, ⟨true, 6, 6, 0, F, 0⟩, ⟨true, 7, 7, 0, F, 0⟩]

/-- `packBits9` bit_packing.go l.217-242 -/
def pack9 : List Stmt := [
  ⟨true, 0, 0, 1, F, 0⟩, ⟨true, 1, 0, 0, F, 7⟩, ⟨false, 1, 1, 2, F, 0⟩, ⟨true, 2, 1, 0, F, 6⟩,
  ⟨false, 2, 2, 3, F, 0⟩, ⟨true, 3, 2, 0, F, 5⟩, ⟨false, 3, 3, 4, F, 0⟩, ⟨true, 4, 3, 0, F, 4⟩,
  ⟨false, 4, 4, 5, F, 0⟩, ⟨true, 5, 4, 0, F, 3⟩, ⟨false, 5, 5, 6, F, 0⟩, ⟨true, 6, 5, 0, F, 2⟩,
  ⟨false, 6, 6, 7, F, 0⟩, ⟨true, 7, 6, 0, F, 1⟩, ⟨false, 7, 7, 8, F, 0⟩, ⟨true, 8, 7, 0, F, 0⟩]

/-- `packBits10` bit_packing.go l.244-270 -/
def pack10 : List Stmt := [
  ⟨true, 0, 0, 2, F, 0⟩, ⟨true, 1, 0, 0, F, 6⟩, ⟨false, 1, 1, 4, F, 0⟩, ⟨true, 2, 1, 0, F, 4⟩,
  ⟨false, 2, 2, 6, F, 0⟩, ⟨true, 3, 2, 0, F, 2⟩, ⟨false, 3, 3, 8, F, 0⟩, ⟨true, 4, 3, 0, F, 0⟩,
  ⟨true, 5, 4, 2, F, 0⟩, ⟨true, 6, 4, 0, F, 6⟩, ⟨false, 6, 5, 4, F, 0⟩, ⟨true, 7, 5, 0, F, 4⟩,
  ⟨false, 7, 6, 6, F, 0⟩, ⟨true, 8, 6, 0, F, 2⟩, ⟨false, 8, 7, 8, F, 0⟩, ⟨true, 9, 7, 0, F, 0⟩]

/-- `packBits11` bit_packing.go l.272-301 -/
def pack11 : List Stmt := [
  ⟨true, 0, 0, 3, F, 0⟩, ⟨true, 1, 0, 0, F, 5⟩, ⟨false, 1, 1, 6, F, 0⟩, ⟨true, 2, 1, 0, F, 2⟩,
  ⟨false, 2, 2, 9, F, 0⟩, ⟨true, 3, 2, 1, F, 0⟩, ⟨true, 4, 2, 0, F, 7⟩, ⟨false, 4, 3, 4, F, 0⟩,
  ⟨true, 5, 3, 0, F, 4⟩, ⟨false, 5, 4, 7, F, 0⟩, ⟨true, 6, 4, 0, F, 1⟩, ⟨false, 6, 5, 10, F, 0⟩,
  ⟨true, 7, 5, 2, F, 0⟩, ⟨true, 8, 5, 0, F, 6⟩, ⟨false, 8, 6, 5, F, 0⟩, ⟨true, 9, 6, 0, F, 3⟩,
  ⟨false, 9, 7, 8, F, 0⟩, ⟨true, 10, 7, 0, F, 0⟩]

/-- `packBits12` bit_packing.go l.303-331 -/
def pack12 : List Stmt := [
  ⟨true, 0, 0, 4, F, 0⟩, ⟨true, 1, 0, 0, F, 4⟩, ⟨false, 1, 1, 8, F, 0⟩, ⟨true, 2, 1, 0, F, 0⟩,
  ⟨true, 3, 2, 4, F, 0⟩, ⟨true, 4, 2, 0, F, 4⟩, ⟨false, 4, 3, 8, F, 0⟩, ⟨true, 5, 3, 0, F, 0⟩,
  ⟨true, 6, 4, 4, F, 0⟩, ⟨true, 7, 4, 0, F, 4⟩, ⟨false, 7, 5, 8, F, 0⟩, ⟨true, 8, 5, 0, F, 0⟩,
  ⟨true, 9, 6, 4, F, 0⟩, ⟨true, 10, 6, 0, F, 4⟩, ⟨false, 10, 7, 8, F, 0⟩, ⟨true, 11, 7, 0, F, 0⟩]

/-- `packBits13` bit_packing.go l.333-366 -/
def pack13 : List Stmt := [
  ⟨true, 0, 0, 5, F, 0⟩, ⟨true, 1, 0, 0, F, 3⟩, ⟨false, 1, 1, 10, F, 0⟩, ⟨true, 2, 1, 2, F, 0⟩,
  ⟨true, 3, 1, 0, F, 6⟩, ⟨false, 3, 2, 7, F, 0⟩, ⟨true, 4, 2, 0, F, 1⟩, ⟨false, 4, 3, 12, F, 0⟩,
  ⟨true, 5, 3, 4, F, 0⟩, ⟨true, 6, 3, 0, F, 4⟩, ⟨false, 6, 4, 9, F, 0⟩, ⟨true, 7, 4, 1, F, 0⟩,
  ⟨true, 8, 4, 0, F, 7⟩, ⟨false, 8, 5, 6, F, 0⟩, ⟨true, 9, 5, 0, F, 2⟩, ⟨false, 9, 6, 11, F, 0⟩,
  ⟨true, 10, 6, 3, F, 0⟩, ⟨true, 11, 6, 0, F, 5⟩, ⟨false, 11, 7, 8, F, 0⟩, ⟨true, 12, 7, 0, F, 0⟩]

/-- `packBits14` bit_packing.go l.368-402 -/
def pack14 : List Stmt := [
  ⟨true, 0, 0, 6, F, 0⟩, ⟨true, 1, 0, 0, F, 2⟩, ⟨false, 1, 1, 12, F, 0⟩, ⟨true, 2, 1, 4, F, 0⟩,
  ⟨true, 3, 1, 0, F, 4⟩, ⟨false, 3, 2, 10, F, 0⟩, ⟨true, 4, 2, 2, F, 0⟩, ⟨true, 5, 2, 0, F, 6⟩,
  ⟨false, 5, 3, 8, F, 0⟩, ⟨true, 6, 3, 0, F, 0⟩, ⟨true, 7, 4, 6, F, 0⟩, ⟨true, 8, 4, 0, F, 2⟩,
  ⟨false, 8, 5, 12, F, 0⟩, ⟨true, 9, 5, 4, F, 0⟩, ⟨true, 10, 5, 0, F, 4⟩, ⟨false, 10, 6, 10, F, 0⟩,
  ⟨true, 11, 6, 2, F, 0⟩, ⟨true, 12, 6, 0, F, 6⟩, ⟨false, 12, 7, 8, F, 0⟩, ⟨true, 13, 7, 0, F, 0⟩]

/-- `packBits15` bit_packing.go l.404-441 -/
def pack15 : List Stmt := [
  ⟨true, 0, 0, 7, F, 0⟩, ⟨true, 1, 0, 0, F, 1⟩, ⟨false, 1, 1, 14, F, 0⟩, ⟨true, 2, 1, 6, F, 0⟩,
  ⟨true, 3, 1, 0, F, 2⟩, ⟨false, 3, 2, 13, F, 0⟩, ⟨true, 4, 2, 5, F, 0⟩, ⟨true, 5, 2, 0, F, 3⟩,
  ⟨false, 5, 3, 12, F, 0⟩, ⟨true, 6, 3, 4, F, 0⟩, ⟨true, 7, 3, 0, F, 4⟩, ⟨false, 7, 4, 11, F, 0⟩,
  ⟨true, 8, 4, 3, F, 0⟩, ⟨true, 9, 4, 0, F, 5⟩, ⟨false, 9, 5, 10, F, 0⟩, ⟨true, 10, 5, 2, F, 0⟩,
  ⟨true, 11, 5, 0, F, 6⟩, ⟨false, 11, 6, 9, F, 0⟩, ⟨true, 12, 6, 1, F, 0⟩, ⟨true, 13, 6, 0, F, 7⟩,
  ⟨false, 13, 7, 8, F, 0⟩, ⟨true, 14, 7, 0, F, 0⟩]

/-- `packBits16` bit_packing.go l.443-467 -/
def pack16 : List Stmt := [
  ⟨true, 0, 0, 8, F, 0⟩, ⟨true, 1, 0, 0, F, 0⟩, ⟨true, 2, 1, 8, F, 0⟩, ⟨true, 3, 1, 0, F, 0⟩,
  ⟨true, 4, 2, 8, F, 0⟩, ⟨true, 5, 2, 0, F, 0⟩, ⟨true, 6, 3, 8, F, 0⟩, ⟨true, 7, 3, 0, F, 0⟩,
  ⟨true, 8, 4, 8, F, 0⟩, ⟨true, 9, 4, 0, F, 0⟩, ⟨true, 10, 5, 8, F, 0⟩, ⟨true, 11, 5, 0, F, 0⟩,
  ⟨true, 12, 6, 8, F, 0⟩, ⟨true, 13, 6, 0, F, 0⟩, ⟨true, 14, 7, 8, F, 0⟩, ⟨true, 15, 7, 0, F, 0⟩]

/-- `packBits17` bit_packing.go l.469-510 -/
def pack17 : List Stmt := [
  ⟨true, 0, 0, 9, F, 0⟩, ⟨true, 1, 0, 1, F, 0⟩, ⟨true, 2, 0, 0, F, 7⟩, ⟨false, 2, 1, 10, F, 0⟩,
  ⟨true, 3, 1, 2, F, 0⟩, ⟨true, 4, 1, 0, F, 6⟩, ⟨false, 4, 2, 11, F, 0⟩, ⟨true, 5, 2, 3, F, 0⟩,
  ⟨true, 6, 2, 0, F, 5⟩, ⟨false, 6, 3, 12, F, 0⟩, ⟨true, 7, 3, 4, F, 0⟩, ⟨true, 8, 3, 0, F, 4⟩,
  ⟨false, 8, 4, 13, F, 0⟩, ⟨true, 9, 4, 5, F, 0⟩, ⟨true, 10, 4, 0, F, 3⟩, ⟨false, 10, 5, 14, F, 0⟩,
  ⟨true, 11, 5, 6, F, 0⟩, ⟨true, 12, 5, 0, F, 2⟩, ⟨false, 12, 6, 15, F, 0⟩, ⟨true, 13, 6, 7, F, 0⟩,
  ⟨true, 14, 6, 0, F, 1⟩, ⟨false, 14, 7, 16, F, 0⟩, ⟨true, 15, 7, 8, F, 0⟩, ⟨true, 16, 7, 0, F, 0⟩]

/-- `packBits18` bit_packing.go l.512-554 -/
def pack18 : List Stmt := [
  ⟨true, 0, 0, 10, F, 0⟩, ⟨true, 1, 0, 2, F, 0⟩, ⟨true, 2, 0, 0, F, 6⟩, ⟨false, 2, 1, 12, F, 0⟩,
  ⟨true, 3, 1, 4, F, 0⟩, ⟨true, 4, 1, 0, F, 4⟩, ⟨false, 4, 2, 14, F, 0⟩, ⟨true, 5, 2, 6, F, 0⟩,
  ⟨true, 6, 2, 0, F, 2⟩, ⟨false, 6, 3, 16, F, 0⟩, ⟨true, 7, 3, 8, F, 0⟩, ⟨true, 8, 3, 0, F, 0⟩,
  ⟨true, 9, 4, 10, F, 0⟩, ⟨true, 10, 4, 2, F, 0⟩, ⟨true, 11, 4, 0, F, 6⟩, ⟨false, 11, 5, 12, F, 0⟩,
  ⟨true, 12, 5, 4, F, 0⟩, ⟨true, 13, 5, 0, F, 4⟩, ⟨false, 13, 6, 14, F, 0⟩, ⟨true, 14, 6, 6, F, 0⟩,
  ⟨true, 15, 6, 0, F, 2⟩, ⟨false, 15, 7, 16, F, 0⟩, ⟨true, 16, 7, 8, F, 0⟩, ⟨true, 17, 7, 0, F, 0⟩]

/-- `packBits19` bit_packing.go l.556-601 -/
def pack19 : List Stmt := [
  ⟨true, 0, 0, 11, F, 0⟩, ⟨true, 1, 0, 3, F, 0⟩, ⟨true, 2, 0, 0, F, 5⟩, ⟨false, 2, 1, 14, F, 0⟩,
  ⟨true, 3, 1, 6, F, 0⟩, ⟨true, 4, 1, 0, F, 2⟩, ⟨false, 4, 2, 17, F, 0⟩, ⟨true, 5, 2, 9, F, 0⟩,
  ⟨true, 6, 2, 1, F, 0⟩, ⟨true, 7, 2, 0, F, 7⟩, ⟨false, 7, 3, 12, F, 0⟩, ⟨true, 8, 3, 4, F, 0⟩,
  ⟨true, 9, 3, 0, F, 4⟩, ⟨false, 9, 4, 15, F, 0⟩, ⟨true, 10, 4, 7, F, 0⟩, ⟨true, 11, 4, 0, F, 1⟩,
  ⟨false, 11, 5, 18, F, 0⟩, ⟨true, 12, 5, 10, F, 0⟩, ⟨true, 13, 5, 2, F, 0⟩, ⟨true, 14, 5, 0, F, 6⟩,
  ⟨false, 14, 6, 13, F, 0⟩, ⟨true, 15, 6, 5, F, 0⟩, ⟨true, 16, 6, 0, F, 3⟩, ⟨false, 16, 7, 16, F, 0⟩,
  ⟨true, 17, 7, 8, F, 0⟩, ⟨true, 18, 7, 0, F, 0⟩]

/-- `packBits20` bit_packing.go l.603-647 -/
def pack20 : List Stmt := [
  ⟨true, 0, 0, 12, F, 0⟩, ⟨true, 1, 0, 4, F, 0⟩, ⟨true, 2, 0, 0, F, 4⟩, ⟨false, 2, 1, 16, F, 0⟩,
  ⟨true, 3, 1, 8, F, 0⟩, ⟨true, 4, 1, 0, F, 0⟩, ⟨true, 5, 2, 12, F, 0⟩, ⟨true, 6, 2, 4, F, 0⟩,
  ⟨true, 7, 2, 0, F, 4⟩, ⟨false, 7, 3, 16, F, 0⟩, ⟨true, 8, 3, 8, F, 0⟩, ⟨true, 9, 3, 0, F, 0⟩,
  ⟨true, 10, 4, 12, F, 0⟩, ⟨true, 11, 4, 4, F, 0⟩, ⟨true, 12, 4, 0, F, 4⟩, ⟨false, 12, 5, 16, F, 0⟩,
  ⟨true, 13, 5, 8, F, 0⟩, ⟨true, 14, 5, 0, F, 0⟩, ⟨true, 15, 6, 12, F, 0⟩, ⟨true, 16, 6, 4, F, 0⟩,
  ⟨true, 17, 6, 0, F, 4⟩, ⟨false, 17, 7, 16, F, 0⟩, ⟨true, 18, 7, 8, F, 0⟩, ⟨true, 19, 7, 0, F, 0⟩]

/-- `packBits21` bit_packing.go l.649-698 -/
def pack21 : List Stmt := [
  ⟨true, 0, 0, 13, F, 0⟩, ⟨true, 1, 0, 5, F, 0⟩, ⟨true, 2, 0, 0, F, 3⟩, ⟨false, 2, 1, 18, F, 0⟩,
  ⟨true, 3, 1, 10, F, 0⟩, ⟨true, 4, 1, 2, F, 0⟩, ⟨true, 5, 1, 0, F, 6⟩, ⟨false, 5, 2, 15, F, 0⟩,
  ⟨true, 6, 2, 7, F, 0⟩, ⟨true, 7, 2, 0, F, 1⟩, ⟨false, 7, 3, 20, F, 0⟩, ⟨true, 8, 3, 12, F, 0⟩,
  ⟨true, 9, 3, 4, F, 0⟩, ⟨true, 10, 3, 0, F, 4⟩, ⟨false, 10, 4, 17, F, 0⟩, ⟨true, 11, 4, 9, F, 0⟩,
  ⟨true, 12, 4, 1, F, 0⟩, ⟨true, 13, 4, 0, F, 7⟩, ⟨false, 13, 5, 14, F, 0⟩, ⟨true, 14, 5, 6, F, 0⟩,
  ⟨true, 15, 5, 0, F, 2⟩, ⟨false, 15, 6, 19, F, 0⟩, ⟨true, 16, 6, 11, F, 0⟩, ⟨true, 17, 6, 3, F, 0⟩,
  ⟨true, 18, 6, 0, F, 5⟩, ⟨false, 18, 7, 16, F, 0⟩, ⟨true, 19, 7, 8, F, 0⟩, ⟨true, 20, 7, 0, F, 0⟩]

/-- `packBits22` bit_packing.go l.700-750 -/
def pack22 : List Stmt := [
  ⟨true, 0, 0, 14, F, 0⟩, ⟨true, 1, 0, 6, F, 0⟩, ⟨true, 2, 0, 0, F, 2⟩, ⟨false, 2, 1, 20, F, 0⟩,
  ⟨true, 3, 1, 12, F, 0⟩, ⟨true, 4, 1, 4, F, 0⟩, ⟨true, 5, 1, 0, F, 4⟩, ⟨false, 5, 2, 18, F, 0⟩,
  ⟨true, 6, 2, 10, F, 0⟩, ⟨true, 7, 2, 2, F, 0⟩, ⟨true, 8, 2, 0, F, 6⟩, ⟨false, 8, 3, 16, F, 0⟩,
  ⟨true, 9, 3, 8, F, 0⟩, ⟨true, 10, 3, 0, F, 0⟩, ⟨true, 11, 4, 14, F, 0⟩, ⟨true, 12, 4, 6, F, 0⟩,
  ⟨true, 13, 4, 0, F, 2⟩, ⟨false, 13, 5, 20, F, 0⟩, ⟨true, 14, 5, 12, F, 0⟩, ⟨true, 15, 5, 4, F, 0⟩,
  ⟨true, 16, 5, 0, F, 4⟩, ⟨false, 16, 6, 18, F, 0⟩, ⟨true, 17, 6, 10, F, 0⟩, ⟨true, 18, 6, 2, F, 0⟩,
  ⟨true, 19, 6, 0, F, 6⟩, ⟨false, 19, 7, 16, F, 0⟩, ⟨true, 20, 7, 8, F, 0⟩, ⟨true, 21, 7, 0, F, 0⟩]

/-- `packBits23` bit_packing.go l.752-805 -/
def pack23 : List Stmt := [
  ⟨true, 0, 0, 15, F, 0⟩, ⟨true, 1, 0, 7, F, 0⟩, ⟨true, 2, 0, 0, F, 1⟩, ⟨false, 2, 1, 22, F, 0⟩,
  ⟨true, 3, 1, 14, F, 0⟩, ⟨true, 4, 1, 6, F, 0⟩, ⟨true, 5, 1, 0, F, 2⟩, ⟨false, 5, 2, 21, F, 0⟩,
  ⟨true, 6, 2, 13, F, 0⟩, ⟨true, 7, 2, 5, F, 0⟩, ⟨true, 8, 2, 0, F, 3⟩, ⟨false, 8, 3, 20, F, 0⟩,
  ⟨true, 9, 3, 12, F, 0⟩, ⟨true, 10, 3, 4, F, 0⟩, ⟨true, 11, 3, 0, F, 4⟩, ⟨false, 11, 4, 19, F, 0⟩,
  ⟨true, 12, 4, 11, F, 0⟩, ⟨true, 13, 4, 3, F, 0⟩, ⟨true, 14, 4, 0, F, 5⟩, ⟨false, 14, 5, 18, F, 0⟩,
  ⟨true, 15, 5, 10, F, 0⟩, ⟨true, 16, 5, 2, F, 0⟩, ⟨true, 17, 5, 0, F, 6⟩, ⟨false, 17, 6, 17, F, 0⟩,
  ⟨true, 18, 6, 9, F, 0⟩, ⟨true, 19, 6, 1, F, 0⟩, ⟨true, 20, 6, 0, F, 7⟩, ⟨false, 20, 7, 16, F, 0⟩,
  ⟨true, 21, 7, 8, F, 0⟩, ⟨true, 22, 7, 0, F, 0⟩]

/-- `packBits24` bit_packing.go l.807-839 -/
def pack24 : List Stmt := [
  ⟨true, 0, 0, 16, F, 0⟩, ⟨true, 1, 0, 8, F, 0⟩, ⟨true, 2, 0, 0, F, 0⟩, ⟨true, 3, 1, 16, F, 0⟩,
  ⟨true, 4, 1, 8, F, 0⟩, ⟨true, 5, 1, 0, F, 0⟩, ⟨true, 6, 2, 16, F, 0⟩, ⟨true, 7, 2, 8, F, 0⟩,
  ⟨true, 8, 2, 0, F, 0⟩, ⟨true, 9, 3, 16, F, 0⟩, ⟨true, 10, 3, 8, F, 0⟩, ⟨true, 11, 3, 0, F, 0⟩,
  ⟨true, 12, 4, 16, F, 0⟩, ⟨true, 13, 4, 8, F, 0⟩, ⟨true, 14, 4, 0, F, 0⟩, ⟨true, 15, 5, 16, F, 0⟩,
  ⟨true, 16, 5, 8, F, 0⟩, ⟨true, 17, 5, 0, F, 0⟩, ⟨true, 18, 6, 16, F, 0⟩, ⟨true, 19, 6, 8, F, 0⟩,
  ⟨true, 20, 6, 0, F, 0⟩, ⟨true, 21, 7, 16, F, 0⟩, ⟨true, 22, 7, 8, F, 0⟩, ⟨true, 23, 7, 0, F, 0⟩]

/-- `packBits25` bit_packing.go l.841-898 -/
def pack25 : List Stmt := [
  ⟨true, 0, 0, 17, F, 0⟩, ⟨true, 1, 0, 9, F, 0⟩, ⟨true, 2, 0, 1, F, 0⟩, ⟨true, 3, 0, 0, F, 7⟩,
  ⟨false, 3, 1, 18, F, 0⟩, ⟨true, 4, 1, 10, F, 0⟩, ⟨true, 5, 1, 2, F, 0⟩, ⟨true, 6, 1, 0, F, 6⟩,
  ⟨false, 6, 2, 19, F, 0⟩, ⟨true, 7, 2, 11, F, 0⟩, ⟨true, 8, 2, 3, F, 0⟩, ⟨true, 9, 2, 0, F, 5⟩,
  ⟨false, 9, 3, 20, F, 0⟩, ⟨true, 10, 3, 12, F, 0⟩, ⟨true, 11, 3, 4, F, 0⟩, ⟨true, 12, 3, 0, F, 4⟩,
  ⟨false, 12, 4, 21, F, 0⟩, ⟨true, 13, 4, 13, F, 0⟩, ⟨true, 14, 4, 5, F, 0⟩, ⟨true, 15, 4, 0, F, 3⟩,
  ⟨false, 15, 5, 22, F, 0⟩, ⟨true, 16, 5, 14, F, 0⟩, ⟨true, 17, 5, 6, F, 0⟩, ⟨true, 18, 5, 0, F, 2⟩,
  ⟨false, 18, 6, 23, F, 0⟩, ⟨true, 19, 6, 15, F, 0⟩, ⟨true, 20, 6, 7, F, 0⟩, ⟨true, 21, 6, 0, F, 1⟩,
  ⟨false, 21, 7, 24, F, 0⟩, ⟨true, 22, 7, 16, F, 0⟩, ⟨true, 23, 7, 8, F, 0⟩, ⟨true, 24, 7, 0, F, 0⟩]

/-- `packBits26` bit_packing.go l.900-958 -/
def pack26 : List Stmt := [
  ⟨true, 0, 0, 18, F, 0⟩, ⟨true, 1, 0, 10, F, 0⟩, ⟨true, 2, 0, 2, F, 0⟩, ⟨true, 3, 0, 0, F, 6⟩,
  ⟨false, 3, 1, 20, F, 0⟩, ⟨true, 4, 1, 12, F, 0⟩, ⟨true, 5, 1, 4, F, 0⟩, ⟨true, 6, 1, 0, F, 4⟩,
  ⟨false, 6, 2, 22, F, 0⟩, ⟨true, 7, 2, 14, F, 0⟩, ⟨true, 8, 2, 6, F, 0⟩, ⟨true, 9, 2, 0, F, 2⟩,
  ⟨false, 9, 3, 24, F, 0⟩, ⟨true, 10, 3, 16, F, 0⟩, ⟨true, 11, 3, 8, F, 0⟩, ⟨true, 12, 3, 0, F, 0⟩,
  ⟨true, 13, 4, 18, F, 0⟩, ⟨true, 14, 4, 10, F, 0⟩, ⟨true, 15, 4, 2, F, 0⟩, ⟨true, 16, 4, 0, F, 6⟩,
  ⟨false, 16, 5, 20, F, 0⟩, ⟨true, 17, 5, 12, F, 0⟩, ⟨true, 18, 5, 4, F, 0⟩, ⟨true, 19, 5, 0, F, 4⟩,
  ⟨false, 19, 6, 22, F, 0⟩, ⟨true, 20, 6, 14, F, 0⟩, ⟨true, 21, 6, 6, F, 0⟩, ⟨true, 22, 6, 0, F, 2⟩,
  ⟨false, 22, 7, 24, F, 0⟩, ⟨true, 23, 7, 16, F, 0⟩, ⟨true, 24, 7, 8, F, 0⟩, ⟨true, 25, 7, 0, F, 0⟩]

/-- `packBits27` bit_packing.go l.960-1021 -/
def pack27 : List Stmt := [
  ⟨true, 0, 0, 19, F, 0⟩, ⟨true, 1, 0, 11, F, 0⟩, ⟨true, 2, 0, 3, F, 0⟩, ⟨true, 3, 0, 0, F, 5⟩,
  ⟨false, 3, 1, 22, F, 0⟩, ⟨true, 4, 1, 14, F, 0⟩, ⟨true, 5, 1, 6, F, 0⟩, ⟨true, 6, 1, 0, F, 2⟩,
  ⟨false, 6, 2, 25, F, 0⟩, ⟨true, 7, 2, 17, F, 0⟩, ⟨true, 8, 2, 9, F, 0⟩, ⟨true, 9, 2, 1, F, 0⟩,
  ⟨true, 10, 2, 0, F, 7⟩, ⟨false, 10, 3, 20, F, 0⟩, ⟨true, 11, 3, 12, F, 0⟩, ⟨true, 12, 3, 4, F, 0⟩,
  ⟨true, 13, 3, 0, F, 4⟩, ⟨false, 13, 4, 23, F, 0⟩, ⟨true, 14, 4, 15, F, 0⟩, ⟨true, 15, 4, 7, F, 0⟩,
  ⟨true, 16, 4, 0, F, 1⟩, ⟨false, 16, 5, 26, F, 0⟩, ⟨true, 17, 5, 18, F, 0⟩, ⟨true, 18, 5, 10, F, 0⟩,
  ⟨true, 19, 5, 2, F, 0⟩, ⟨true, 20, 5, 0, F, 6⟩, ⟨false, 20, 6, 21, F, 0⟩, ⟨true, 21, 6, 13, F, 0⟩,
  ⟨true, 22, 6, 5, F, 0⟩, ⟨true, 23, 6, 0, F, 3⟩, ⟨false, 23, 7, 24, F, 0⟩, ⟨true, 24, 7, 16, F, 0⟩,
  ⟨true, 25, 7, 8, F, 0⟩, ⟨true, 26, 7, 0, F, 0⟩]

/-- `packBits28` bit_packing.go l.1023-1056 -/
def pack28 : List Stmt := [
  ⟨true, 0, 0, 20, F, 0⟩, ⟨true, 1, 0, 12, F, 0⟩, ⟨true, 2, 0, 4, F, 0⟩, ⟨true, 3, 0, 0, F, 4⟩,
  ⟨false, 3, 1, 24, F, 0⟩, ⟨true, 4, 1, 16, F, 0⟩, ⟨true, 5, 1, 8, F, 0⟩, ⟨true, 6, 1, 0, F, 0⟩,
  ⟨true, 7, 2, 20, F, 0⟩, ⟨true, 8, 2, 12, F, 0⟩, ⟨true, 9, 2, 4, F, 0⟩, ⟨true, 10, 2, 0, F, 4⟩,
  ⟨false, 10, 3, 24, F, 0⟩, ⟨true, 11, 3, 16, F, 0⟩, ⟨true, 12, 3, 8, F, 0⟩, ⟨true, 13, 3, 0, F, 0⟩,
  ⟨true, 14, 4, 20, F, 0⟩, ⟨true, 15, 4, 12, F, 0⟩, ⟨true, 16, 4, 4, F, 0⟩, ⟨true, 17, 4, 0, F, 4⟩,
  ⟨false, 17, 5, 24, F, 0⟩, ⟨true, 18, 5, 16, F, 0⟩, ⟨true, 19, 5, 8, F, 0⟩, ⟨true, 20, 5, 0, F, 0⟩,
  ⟨true, 21, 6, 20, F, 0⟩, ⟨true, 22, 6, 12, F, 0⟩, ⟨true, 23, 6, 4, F, 0⟩, ⟨true, 24, 6, 0, F, 4⟩,
  ⟨false, 24, 7, 24, F, 0⟩, ⟨true, 25, 7, 16, F, 0⟩, ⟨true, 26, 7, 8, F, 0⟩, ⟨true, 27, 7, 0, F, 0⟩]

/-- `packBits29` bit_packing.go l.1058-1123 -/
def pack29 : List Stmt := [
  ⟨true, 0, 0, 21, F, 0⟩, ⟨true, 1, 0, 13, F, 0⟩, ⟨true, 2, 0, 5, F, 0⟩, ⟨true, 3, 0, 0, F, 3⟩,
  ⟨false, 3, 1, 26, F, 0⟩, ⟨true, 4, 1, 18, F, 0⟩, ⟨true, 5, 1, 10, F, 0⟩, ⟨true, 6, 1, 2, F, 0⟩,
  ⟨true, 7, 1, 0, F, 6⟩, ⟨false, 7, 2, 23, F, 0⟩, ⟨true, 8, 2, 15, F, 0⟩, ⟨true, 9, 2, 7, F, 0⟩,
  ⟨true, 10, 2, 0, F, 1⟩, ⟨false, 10, 3, 28, F, 0⟩, ⟨true, 11, 3, 20, F, 0⟩, ⟨true, 12, 3, 12, F, 0⟩,
  ⟨true, 13, 3, 4, F, 0⟩, ⟨true, 14, 3, 0, F, 4⟩, ⟨false, 14, 4, 25, F, 0⟩, ⟨true, 15, 4, 17, F, 0⟩,
  ⟨true, 16, 4, 9, F, 0⟩, ⟨true, 17, 4, 1, F, 0⟩, ⟨true, 18, 4, 0, F, 7⟩, ⟨false, 18, 5, 22, F, 0⟩,
  ⟨true, 19, 5, 14, F, 0⟩, ⟨true, 20, 5, 6, F, 0⟩, ⟨true, 21, 5, 0, F, 2⟩, ⟨false, 21, 6, 27, F, 0⟩,
  ⟨true, 22, 6, 19, F, 0⟩, ⟨true, 23, 6, 11, F, 0⟩, ⟨true, 24, 6, 3, F, 0⟩, ⟨true, 25, 6, 0, F, 5⟩,
  ⟨false, 25, 7, 24, F, 0⟩, ⟨true, 26, 7, 16, F, 0⟩, ⟨true, 27, 7, 8, F, 0⟩, ⟨true, 28, 7, 0, F, 0⟩]

/-- `packBits30` bit_packing.go l.1125-1169 -/
def pack30 : List Stmt := [
  ⟨true, 0, 0, 22, F, 0⟩, ⟨true, 1, 0, 14, F, 0⟩, ⟨true, 2, 0, 6, F, 0⟩, ⟨true, 3, 0, 0, F, 2⟩,
  ⟨false, 3, 1, 28, F, 0⟩, ⟨true, 4, 1, 20, F, 0⟩, ⟨true, 5, 1, 12, F, 0⟩, ⟨true, 6, 1, 4, F, 0⟩,
  ⟨true, 7, 1, 0, F, 4⟩, ⟨false, 7, 2, 26, F, 0⟩, ⟨true, 8, 2, 18, F, 0⟩, ⟨true, 9, 2, 10, F, 0⟩,
  ⟨true, 10, 2, 2, F, 0⟩, ⟨true, 11, 2, 0, F, 6⟩, ⟨false, 11, 3, 24, F, 0⟩, ⟨true, 12, 3, 16, F, 0⟩,
  ⟨true, 13, 3, 8, F, 0⟩, ⟨true, 14, 3, 0, F, 0⟩, ⟨true, 15, 4, 22, F, 0⟩, ⟨true, 16, 4, 14, F, 0⟩,
  ⟨true, 17, 4, 6, F, 0⟩, ⟨true, 18, 4, 0, F, 2⟩, ⟨false, 18, 5, 28, F, 0⟩, ⟨true, 19, 5, 20, F, 0⟩,
  ⟨true, 20, 5, 12, F, 0⟩, ⟨true, 21, 5, 4, F, 0⟩, ⟨true, 22, 5, 0, F, 4⟩, ⟨false, 22, 6, 26, F, 0⟩,
  ⟨true, 23, 6, 18, F, 0⟩, ⟨true, 24, 6, 10, F, 0⟩, ⟨true, 25, 6, 2, F, 0⟩, ⟨true, 26, 6, 0, F, 6⟩,
  ⟨false, 26, 7, 24, F, 0⟩, ⟨true, 27, 7, 16, F, 0⟩, ⟨true, 28, 7, 8, F, 0⟩, ⟨true, 29, 7, 0, F, 0⟩]

/-- `packBits31` bit_packing.go l.1171-1217 -/
def pack31 : List Stmt := [
  ⟨true, 0, 0, 23, F, 0⟩, ⟨true, 1, 0, 15, F, 0⟩, ⟨true, 2, 0, 7, F, 0⟩, ⟨true, 3, 0, 0, F, 1⟩,
  ⟨false, 3, 1, 30, F, 0⟩, ⟨true, 4, 1, 22, F, 0⟩, ⟨true, 5, 1, 14, F, 0⟩, ⟨true, 6, 1, 6, F, 0⟩,
  ⟨true, 7, 1, 0, F, 2⟩, ⟨false, 7, 2, 29, F, 0⟩, ⟨true, 8, 2, 21, F, 0⟩, ⟨true, 9, 2, 13, F, 0⟩,
  ⟨true, 10, 2, 5, F, 0⟩, ⟨true, 11, 2, 0, F, 3⟩, ⟨false, 11, 3, 28, F, 0⟩, ⟨true, 12, 3, 20, F, 0⟩,
  ⟨true, 13, 3, 12, F, 0⟩, ⟨true, 14, 3, 4, F, 0⟩, ⟨true, 15, 3, 0, F, 4⟩, ⟨false, 15, 4, 27, F, 0⟩,
  ⟨true, 16, 4, 19, F, 0⟩, ⟨true, 17, 4, 11, F, 0⟩, ⟨true, 18, 4, 3, F, 0⟩, ⟨true, 19, 4, 0, F, 5⟩,
  ⟨false, 19, 5, 26, F, 0⟩, ⟨true, 20, 5, 18, F, 0⟩, ⟨true, 21, 5, 10, F, 0⟩, ⟨true, 22, 5, 2, F, 0⟩,
  ⟨true, 23, 5, 0, F, 6⟩, ⟨false, 23, 6, 25, F, 0⟩, ⟨true, 24, 6, 17, F, 0⟩, ⟨true, 25, 6, 9, F, 0⟩,
  ⟨true, 26, 6, 1, F, 0⟩, ⟨true, 27, 6, 0, F, 7⟩, ⟨false, 27, 7, 24, F, 0⟩, ⟨true, 28, 7, 16, F, 0⟩,
  ⟨true, 29, 7, 8, F, 0⟩, ⟨true, 30, 7, 0, F, 0⟩]

/-- `packBits32` bit_packing.go l.1219-1259 -/
def pack32 : List Stmt := [
  ⟨true, 0, 0, 24, F, 0⟩, ⟨true, 1, 0, 16, F, 0⟩, ⟨true, 2, 0, 8, F, 0⟩, ⟨true, 3, 0, 0, F, 0⟩,
  ⟨true, 4, 1, 24, F, 0⟩, ⟨true, 5, 1, 16, F, 0⟩, ⟨true, 6, 1, 8, F, 0⟩, ⟨true, 7, 1, 0, F, 0⟩,
  ⟨true, 8, 2, 24, F, 0⟩, ⟨true, 9, 2, 16, F, 0⟩, ⟨true, 10, 2, 8, F, 0⟩, ⟨true, 11, 2, 0, F, 0⟩,
  ⟨true, 12, 3, 24, F, 0⟩, ⟨true, 13, 3, 16, F, 0⟩, ⟨true, 14, 3, 8, F, 0⟩, ⟨true, 15, 3, 0, F, 0⟩,
  ⟨true, 16, 4, 24, F, 0⟩, ⟨true, 17, 4, 16, F, 0⟩, ⟨true, 18, 4, 8, F, 0⟩, ⟨true, 19, 4, 0, F, 0⟩,
  ⟨true, 20, 5, 24, F, 0⟩, ⟨true, 21, 5, 16, F, 0⟩, ⟨true, 22, 5, 8, F, 0⟩, ⟨true, 23, 5, 0, F, 0⟩,
  ⟨true, 24, 6, 24, F, 0⟩, ⟨true, 25, 6, 16, F, 0⟩, ⟨true, 26, 6, 8, F, 0⟩, ⟨true, 27, 6, 0, F, 0⟩,
  ⟨true, 28, 7, 24, F, 0⟩, ⟨true, 29, 7, 16, F, 0⟩, ⟨true, 30, 7, 8, F, 0⟩, ⟨true, 31, 7, 0, F, 0⟩]

/-- `packBits33` bit_packing.go l.1261-1309 -/
def pack33 : List Stmt := [
  ⟨true, 0, 0, 25, F, 0⟩, ⟨true, 1, 0, 17, F, 0⟩, ⟨true, 2, 0, 9, F, 0⟩, ⟨true, 3, 0, 1, F, 0⟩,
  ⟨true, 4, 0, 0, F, 7⟩, ⟨false, 4, 1, 26, F, 0⟩, ⟨true, 5, 1, 18, F, 0⟩, ⟨true, 6, 1, 10, F, 0⟩,
  ⟨true, 7, 1, 2, F, 0⟩, ⟨true, 8, 1, 0, F, 6⟩, ⟨false, 8, 2, 27, F, 0⟩, ⟨true, 9, 2, 19, F, 0⟩,
  ⟨true, 10, 2, 11, F, 0⟩, ⟨true, 11, 2, 3, F, 0⟩, ⟨true, 12, 2, 0, F, 5⟩, ⟨false, 12, 3, 28, F, 0⟩,
  ⟨true, 13, 3, 20, F, 0⟩, ⟨true, 14, 3, 12, F, 0⟩, ⟨true, 15, 3, 4, F, 0⟩, ⟨true, 16, 3, 0, F, 4⟩,
  ⟨false, 16, 4, 29, F, 0⟩, ⟨true, 17, 4, 21, F, 0⟩, ⟨true, 18, 4, 13, F, 0⟩, ⟨true, 19, 4, 5, F, 0⟩,
  ⟨true, 20, 4, 0, F, 3⟩, ⟨false, 20, 5, 30, F, 0⟩, ⟨true, 21, 5, 22, F, 0⟩, ⟨true, 22, 5, 14, F, 0⟩,
  ⟨true, 23, 5, 6, F, 0⟩, ⟨true, 24, 5, 0, F, 2⟩, ⟨false, 24, 6, 31, F, 0⟩, ⟨true, 25, 6, 23, F, 0⟩,
  ⟨true, 26, 6, 15, F, 0⟩, ⟨true, 27, 6, 7, F, 0⟩, ⟨true, 28, 6, 0, F, 1⟩, ⟨false, 28, 7, 32, F, 0⟩,
  ⟨true, 29, 7, 24, F, 0⟩, ⟨true, 30, 7, 16, F, 0⟩, ⟨true, 31, 7, 8, F, 0⟩, ⟨true, 32, 7, 0, F, 0⟩]

/-- `packBits34` bit_packing.go l.1311-1359 -/
def pack34 : List Stmt := [
  ⟨true, 0, 0, 26, F, 0⟩, ⟨true, 1, 0, 18, F, 0⟩, ⟨true, 2, 0, 10, F, 0⟩, ⟨true, 3, 0, 2, F, 0⟩,
  ⟨true, 4, 0, 0, F, 6⟩, ⟨false, 4, 1, 28, F, 0⟩, ⟨true, 5, 1, 20, F, 0⟩, ⟨true, 6, 1, 12, F, 0⟩,
  ⟨true, 7, 1, 4, F, 0⟩, ⟨true, 8, 1, 0, F, 4⟩, ⟨false, 8, 2, 30, F, 0⟩, ⟨true, 9, 2, 22, F, 0⟩,
  ⟨true, 10, 2, 14, F, 0⟩, ⟨true, 11, 2, 6, F, 0⟩, ⟨true, 12, 2, 0, F, 2⟩, ⟨false, 12, 3, 32, F, 0⟩,
  ⟨true, 13, 3, 24, F, 0⟩, ⟨true, 14, 3, 16, F, 0⟩, ⟨true, 15, 3, 8, F, 0⟩, ⟨true, 16, 3, 0, F, 0⟩,
  ⟨true, 17, 4, 26, F, 0⟩, ⟨true, 18, 4, 18, F, 0⟩, ⟨true, 19, 4, 10, F, 0⟩, ⟨true, 20, 4, 2, F, 0⟩,
  ⟨true, 21, 4, 0, F, 6⟩, ⟨false, 21, 5, 28, F, 0⟩, ⟨true, 22, 5, 20, F, 0⟩, ⟨true, 23, 5, 12, F, 0⟩,
  ⟨true, 24, 5, 4, F, 0⟩, ⟨true, 25, 5, 0, F, 4⟩, ⟨false, 25, 6, 30, F, 0⟩, ⟨true, 26, 6, 22, F, 0⟩,
  ⟨true, 27, 6, 14, F, 0⟩, ⟨true, 28, 6, 6, F, 0⟩, ⟨true, 29, 6, 0, F, 2⟩, ⟨false, 29, 7, 32, F, 0⟩,
  ⟨true, 30, 7, 24, F, 0⟩, ⟨true, 31, 7, 16, F, 0⟩, ⟨true, 32, 7, 8, F, 0⟩, ⟨true, 33, 7, 0, F, 0⟩]

/-- `packBits35` bit_packing.go l.1361-1411 -/
def pack35 : List Stmt := [
  ⟨true, 0, 0, 27, F, 0⟩, ⟨true, 1, 0, 19, F, 0⟩, ⟨true, 2, 0, 11, F, 0⟩, ⟨true, 3, 0, 3, F, 0⟩,
  ⟨true, 4, 0, 0, F, 5⟩, ⟨false, 4, 1, 30, F, 0⟩, ⟨true, 5, 1, 22, F, 0⟩, ⟨true, 6, 1, 14, F, 0⟩,
  ⟨true, 7, 1, 6, F, 0⟩, ⟨true, 8, 1, 0, F, 2⟩, ⟨false, 8, 2, 33, F, 0⟩, ⟨true, 9, 2, 25, F, 0⟩,
  ⟨true, 10, 2, 17, F, 0⟩, ⟨true, 11, 2, 9, F, 0⟩, ⟨true, 12, 2, 1, F, 0⟩, ⟨true, 13, 2, 0, F, 7⟩,
  ⟨false, 13, 3, 28, F, 0⟩, ⟨true, 14, 3, 20, F, 0⟩, ⟨true, 15, 3, 12, F, 0⟩, ⟨true, 16, 3, 4, F, 0⟩,
  ⟨true, 17, 3, 0, F, 4⟩, ⟨false, 17, 4, 31, F, 0⟩, ⟨true, 18, 4, 23, F, 0⟩, ⟨true, 19, 4, 15, F, 0⟩,
  ⟨true, 20, 4, 7, F, 0⟩, ⟨true, 21, 4, 0, F, 1⟩, ⟨false, 21, 5, 34, F, 0⟩, ⟨true, 22, 5, 26, F, 0⟩,
  ⟨true, 23, 5, 18, F, 0⟩, ⟨true, 24, 5, 10, F, 0⟩, ⟨true, 25, 5, 2, F, 0⟩, ⟨true, 26, 5, 0, F, 6⟩,
  ⟨false, 26, 6, 29, F, 0⟩, ⟨true, 27, 6, 21, F, 0⟩, ⟨true, 28, 6, 13, F, 0⟩, ⟨true, 29, 6, 5, F, 0⟩,
  ⟨true, 30, 6, 0, F, 3⟩, ⟨false, 30, 7, 32, F, 0⟩, ⟨true, 31, 7, 24, F, 0⟩, ⟨true, 32, 7, 16, F, 0⟩,
  ⟨true, 33, 7, 8, F, 0⟩, ⟨true, 34, 7, 0, F, 0⟩]

/-- `packBits36` bit_packing.go l.1413-1461 -/
def pack36 : List Stmt := [
  ⟨true, 0, 0, 28, F, 0⟩, ⟨true, 1, 0, 20, F, 0⟩, ⟨true, 2, 0, 12, F, 0⟩, ⟨true, 3, 0, 4, F, 0⟩,
  ⟨true, 4, 0, 0, F, 4⟩, ⟨false, 4, 1, 32, F, 0⟩, ⟨true, 5, 1, 24, F, 0⟩, ⟨true, 6, 1, 16, F, 0⟩,
  ⟨true, 7, 1, 8, F, 0⟩, ⟨true, 8, 1, 0, F, 0⟩, ⟨true, 9, 2, 28, F, 0⟩, ⟨true, 10, 2, 20, F, 0⟩,
  ⟨true, 11, 2, 12, F, 0⟩, ⟨true, 12, 2, 4, F, 0⟩, ⟨true, 13, 2, 0, F, 4⟩, ⟨false, 13, 3, 32, F, 0⟩,
  ⟨true, 14, 3, 24, F, 0⟩, ⟨true, 15, 3, 16, F, 0⟩, ⟨true, 16, 3, 8, F, 0⟩, ⟨true, 17, 3, 0, F, 0⟩,
  ⟨true, 18, 4, 28, F, 0⟩, ⟨true, 19, 4, 20, F, 0⟩, ⟨true, 20, 4, 12, F, 0⟩, ⟨true, 21, 4, 4, F, 0⟩,
  ⟨true, 22, 4, 0, F, 4⟩, ⟨false, 22, 5, 32, F, 0⟩, ⟨true, 23, 5, 24, F, 0⟩, ⟨true, 24, 5, 16, F, 0⟩,
  ⟨true, 25, 5, 8, F, 0⟩, ⟨true, 26, 5, 0, F, 0⟩, ⟨true, 27, 6, 28, F, 0⟩, ⟨true, 28, 6, 20, F, 0⟩,
  ⟨true, 29, 6, 12, F, 0⟩, ⟨true, 30, 6, 4, F, 0⟩, ⟨true, 31, 6, 0, F, 4⟩, ⟨false, 31, 7, 32, F, 0⟩,
  ⟨true, 32, 7, 24, F, 0⟩, ⟨true, 33, 7, 16, F, 0⟩, ⟨true, 34, 7, 8, F, 0⟩, ⟨true, 35, 7, 0, F, 0⟩]

/-- `packBits37` bit_packing.go l.1463-1515 -/
def pack37 : List Stmt := [
  ⟨true, 0, 0, 29, F, 0⟩, ⟨true, 1, 0, 21, F, 0⟩, ⟨true, 2, 0, 13, F, 0⟩, ⟨true, 3, 0, 5, F, 0⟩,
  ⟨true, 4, 0, 0, F, 3⟩, ⟨false, 4, 1, 34, F, 0⟩, ⟨true, 5, 1, 26, F, 0⟩, ⟨true, 6, 1, 18, F, 0⟩,
  ⟨true, 7, 1, 10, F, 0⟩, ⟨true, 8, 1, 2, F, 0⟩, ⟨true, 9, 1, 0, F, 6⟩, ⟨false, 9, 2, 31, F, 0⟩,
  ⟨true, 10, 2, 23, F, 0⟩, ⟨true, 11, 2, 15, F, 0⟩, ⟨true, 12, 2, 7, F, 0⟩, ⟨true, 13, 2, 0, F, 1⟩,
  ⟨false, 13, 3, 36, F, 0⟩, ⟨true, 14, 3, 28, F, 0⟩, ⟨true, 15, 3, 20, F, 0⟩, ⟨true, 16, 3, 12, F, 0⟩,
  ⟨true, 17, 3, 4, F, 0⟩, ⟨true, 18, 3, 0, F, 4⟩, ⟨false, 18, 4, 33, F, 0⟩, ⟨true, 19, 4, 25, F, 0⟩,
  ⟨true, 20, 4, 17, F, 0⟩, ⟨true, 21, 4, 9, F, 0⟩, ⟨true, 22, 4, 1, F, 0⟩, ⟨true, 23, 4, 0, F, 7⟩,
  ⟨false, 23, 5, 30, F, 0⟩, ⟨true, 24, 5, 22, F, 0⟩, ⟨true, 25, 5, 14, F, 0⟩, ⟨true, 26, 5, 6, F, 0⟩,
  ⟨true, 27, 5, 0, F, 2⟩, ⟨false, 27, 6, 35, F, 0⟩, ⟨true, 28, 6, 27, F, 0⟩, ⟨true, 29, 6, 19, F, 0⟩,
  ⟨true, 30, 6, 11, F, 0⟩, ⟨true, 31, 6, 3, F, 0⟩, ⟨true, 32, 6, 0, F, 5⟩, ⟨false, 32, 7, 32, F, 0⟩,
  ⟨true, 33, 7, 24, F, 0⟩, ⟨true, 34, 7, 16, F, 0⟩, ⟨true, 35, 7, 8, F, 0⟩, ⟨true, 36, 7, 0, F, 0⟩]

/-- `packBits38` bit_packing.go l.1517-1569 -/
def pack38 : List Stmt := [
  ⟨true, 0, 0, 30, F, 0⟩, ⟨true, 1, 0, 22, F, 0⟩, ⟨true, 2, 0, 14, F, 0⟩, ⟨true, 3, 0, 6, F, 0⟩,
  ⟨true, 4, 0, 0, F, 2⟩, ⟨false, 4, 1, 36, F, 0⟩, ⟨true, 5, 1, 28, F, 0⟩, ⟨true, 6, 1, 20, F, 0⟩,
  ⟨true, 7, 1, 12, F, 0⟩, ⟨true, 8, 1, 4, F, 0⟩, ⟨true, 9, 1, 0, F, 4⟩, ⟨false, 9, 2, 34, F, 0⟩,
  ⟨true, 10, 2, 26, F, 0⟩, ⟨true, 11, 2, 18, F, 0⟩, ⟨true, 12, 2, 10, F, 0⟩, ⟨true, 13, 2, 2, F, 0⟩,
  ⟨true, 14, 2, 0, F, 6⟩, ⟨false, 14, 3, 32, F, 0⟩, ⟨true, 15, 3, 24, F, 0⟩, ⟨true, 16, 3, 16, F, 0⟩,
  ⟨true, 17, 3, 8, F, 0⟩, ⟨true, 18, 3, 0, F, 0⟩, ⟨true, 19, 4, 30, F, 0⟩, ⟨true, 20, 4, 22, F, 0⟩,
  ⟨true, 21, 4, 14, F, 0⟩, ⟨true, 22, 4, 6, F, 0⟩, ⟨true, 23, 4, 0, F, 2⟩, ⟨false, 23, 5, 36, F, 0⟩,
  ⟨true, 24, 5, 28, F, 0⟩, ⟨true, 25, 5, 20, F, 0⟩, ⟨true, 26, 5, 12, F, 0⟩, ⟨true, 27, 5, 4, F, 0⟩,
  ⟨true, 28, 5, 0, F, 4⟩, ⟨false, 28, 6, 34, F, 0⟩, ⟨true, 29, 6, 26, F, 0⟩, ⟨true, 30, 6, 18, F, 0⟩,
  ⟨true, 31, 6, 10, F, 0⟩, ⟨true, 32, 6, 2, F, 0⟩, ⟨true, 33, 6, 0, F, 6⟩, ⟨false, 33, 7, 32, F, 0⟩,
  ⟨true, 34, 7, 24, F, 0⟩, ⟨true, 35, 7, 16, F, 0⟩, ⟨true, 36, 7, 8, F, 0⟩, ⟨true, 37, 7, 0, F, 0⟩]

/-- `packBits39` bit_packing.go l.1571-1625 -/
def pack39 : List Stmt := [
  ⟨true, 0, 0, 31, F, 0⟩, ⟨true, 1, 0, 23, F, 0⟩, ⟨true, 2, 0, 15, F, 0⟩, ⟨true, 3, 0, 7, F, 0⟩,
  ⟨true, 4, 0, 0, F, 1⟩, ⟨false, 4, 1, 38, F, 0⟩, ⟨true, 5, 1, 30, F, 0⟩, ⟨true, 6, 1, 22, F, 0⟩,
  ⟨true, 7, 1, 14, F, 0⟩, ⟨true, 8, 1, 6, F, 0⟩, ⟨true, 9, 1, 0, F, 2⟩, ⟨false, 9, 2, 37, F, 0⟩,
  ⟨true, 10, 2, 29, F, 0⟩, ⟨true, 11, 2, 21, F, 0⟩, ⟨true, 12, 2, 13, F, 0⟩, ⟨true, 13, 2, 5, F, 0⟩,
  ⟨true, 14, 2, 0, F, 3⟩, ⟨false, 14, 3, 36, F, 0⟩, ⟨true, 15, 3, 28, F, 0⟩, ⟨true, 16, 3, 20, F, 0⟩,
  ⟨true, 17, 3, 12, F, 0⟩, ⟨true, 18, 3, 4, F, 0⟩, ⟨true, 19, 3, 0, F, 4⟩, ⟨false, 19, 4, 35, F, 0⟩,
  ⟨true, 20, 4, 27, F, 0⟩, ⟨true, 21, 4, 19, F, 0⟩, ⟨true, 22, 4, 11, F, 0⟩, ⟨true, 23, 4, 3, F, 0⟩,
  ⟨true, 24, 4, 0, F, 5⟩, ⟨false, 24, 5, 34, F, 0⟩, ⟨true, 25, 5, 26, F, 0⟩, ⟨true, 26, 5, 18, F, 0⟩,
  ⟨true, 27, 5, 10, F, 0⟩, ⟨true, 28, 5, 2, F, 0⟩, ⟨true, 29, 5, 0, F, 6⟩, ⟨false, 29, 6, 33, F, 0⟩,
  ⟨true, 30, 6, 25, F, 0⟩, ⟨true, 31, 6, 17, F, 0⟩, ⟨true, 32, 6, 9, F, 0⟩, ⟨true, 33, 6, 1, F, 0⟩,
  ⟨true, 34, 6, 0, F, 7⟩, ⟨false, 34, 7, 32, F, 0⟩, ⟨true, 35, 7, 24, F, 0⟩, ⟨true, 36, 7, 16, F, 0⟩,
  ⟨true, 37, 7, 8, F, 0⟩, ⟨true, 38, 7, 0, F, 0⟩]

/-- `packBits40` bit_packing.go l.1627-1675 -/
def pack40 : List Stmt := [
  ⟨true, 0, 0, 32, F, 0⟩, ⟨true, 1, 0, 24, F, 0⟩, ⟨true, 2, 0, 16, F, 0⟩, ⟨true, 3, 0, 8, F, 0⟩,
  ⟨true, 4, 0, 0, F, 0⟩, ⟨true, 5, 1, 32, F, 0⟩, ⟨true, 6, 1, 24, F, 0⟩, ⟨true, 7, 1, 16, F, 0⟩,
  ⟨true, 8, 1, 8, F, 0⟩, ⟨true, 9, 1, 0, F, 0⟩, ⟨true, 10, 2, 32, F, 0⟩, ⟨true, 11, 2, 24, F, 0⟩,
  ⟨true, 12, 2, 16, F, 0⟩, ⟨true, 13, 2, 8, F, 0⟩, ⟨true, 14, 2, 0, F, 0⟩, ⟨true, 15, 3, 32, F, 0⟩,
  ⟨true, 16, 3, 24, F, 0⟩, ⟨true, 17, 3, 16, F, 0⟩, ⟨true, 18, 3, 8, F, 0⟩, ⟨true, 19, 3, 0, F, 0⟩,
  ⟨true, 20, 4, 32, F, 0⟩, ⟨true, 21, 4, 24, F, 0⟩, ⟨true, 22, 4, 16, F, 0⟩, ⟨true, 23, 4, 8, F, 0⟩,
  ⟨true, 24, 4, 0, F, 0⟩, ⟨true, 25, 5, 32, F, 0⟩, ⟨true, 26, 5, 24, F, 0⟩, ⟨true, 27, 5, 16, F, 0⟩,
  ⟨true, 28, 5, 8, F, 0⟩, ⟨true, 29, 5, 0, F, 0⟩, ⟨true, 30, 6, 32, F, 0⟩, ⟨true, 31, 6, 24, F, 0⟩,
  ⟨true, 32, 6, 16, F, 0⟩, ⟨true, 33, 6, 8, F, 0⟩, ⟨true, 34, 6, 0, F, 0⟩, ⟨true, 35, 7, 32, F, 0⟩,
  ⟨true, 36, 7, 24, F, 0⟩, ⟨true, 37, 7, 16, F, 0⟩, ⟨true, 38, 7, 8, F, 0⟩, ⟨true, 39, 7, 0, F, 0⟩]

/-- `packBits41` bit_packing.go l.1677-1733 -/
def pack41 : List Stmt := [
  ⟨true, 0, 0, 33, F, 0⟩, ⟨true, 1, 0, 25, F, 0⟩, ⟨true, 2, 0, 17, F, 0⟩, ⟨true, 3, 0, 9, F, 0⟩,
  ⟨true, 4, 0, 1, F, 0⟩, ⟨true, 5, 0, 0, F, 7⟩, ⟨false, 5, 1, 34, F, 0⟩, ⟨true, 6, 1, 26, F, 0⟩,
  ⟨true, 7, 1, 18, F, 0⟩, ⟨true, 8, 1, 10, F, 0⟩, ⟨true, 9, 1, 2, F, 0⟩, ⟨true, 10, 1, 0, F, 6⟩,
  ⟨false, 10, 2, 35, F, 0⟩, ⟨true, 11, 2, 27, F, 0⟩, ⟨true, 12, 2, 19, F, 0⟩, ⟨true, 13, 2, 11, F, 0⟩,
  ⟨true, 14, 2, 3, F, 0⟩, ⟨true, 15, 2, 0, F, 5⟩, ⟨false, 15, 3, 36, F, 0⟩, ⟨true, 16, 3, 28, F, 0⟩,
  ⟨true, 17, 3, 20, F, 0⟩, ⟨true, 18, 3, 12, F, 0⟩, ⟨true, 19, 3, 4, F, 0⟩, ⟨true, 20, 3, 0, F, 4⟩,
  ⟨false, 20, 4, 37, F, 0⟩, ⟨true, 21, 4, 29, F, 0⟩, ⟨true, 22, 4, 21, F, 0⟩, ⟨true, 23, 4, 13, F, 0⟩,
  ⟨true, 24, 4, 5, F, 0⟩, ⟨true, 25, 4, 0, F, 3⟩, ⟨false, 25, 5, 38, F, 0⟩, ⟨true, 26, 5, 30, F, 0⟩,
  ⟨true, 27, 5, 22, F, 0⟩, ⟨true, 28, 5, 14, F, 0⟩, ⟨true, 29, 5, 6, F, 0⟩, ⟨true, 30, 5, 0, F, 2⟩,
  ⟨false, 30, 6, 39, F, 0⟩, ⟨true, 31, 6, 31, F, 0⟩, ⟨true, 32, 6, 23, F, 0⟩, ⟨true, 33, 6, 15, F, 0⟩,
  ⟨true, 34, 6, 7, F, 0⟩, ⟨true, 35, 6, 0, F, 1⟩, ⟨false, 35, 7, 40, F, 0⟩, ⟨true, 36, 7, 32, F, 0⟩,
  ⟨true, 37, 7, 24, F, 0⟩, ⟨true, 38, 7, 16, F, 0⟩, ⟨true, 39, 7, 8, F, 0⟩, ⟨true, 40, 7, 0, F, 0⟩]

/-- `packBits42` bit_packing.go l.1735-1791 -/
def pack42 : List Stmt := [
  ⟨true, 0, 0, 34, F, 0⟩, ⟨true, 1, 0, 26, F, 0⟩, ⟨true, 2, 0, 18, F, 0⟩, ⟨true, 3, 0, 10, F, 0⟩,
  ⟨true, 4, 0, 2, F, 0⟩, ⟨true, 5, 0, 0, F, 6⟩, ⟨false, 5, 1, 36, F, 0⟩, ⟨true, 6, 1, 28, F, 0⟩,
  ⟨true, 7, 1, 20, F, 0⟩, ⟨true, 8, 1, 12, F, 0⟩, ⟨true, 9, 1, 4, F, 0⟩, ⟨true, 10, 1, 0, F, 4⟩,
  ⟨false, 10, 2, 38, F, 0⟩, ⟨true, 11, 2, 30, F, 0⟩, ⟨true, 12, 2, 22, F, 0⟩, ⟨true, 13, 2, 14, F, 0⟩,
  ⟨true, 14, 2, 6, F, 0⟩, ⟨true, 15, 2, 0, F, 2⟩, ⟨false, 15, 3, 40, F, 0⟩, ⟨true, 16, 3, 32, F, 0⟩,
  ⟨true, 17, 3, 24, F, 0⟩, ⟨true, 18, 3, 16, F, 0⟩, ⟨true, 19, 3, 8, F, 0⟩, ⟨true, 20, 3, 0, F, 0⟩,
  ⟨true, 21, 4, 34, F, 0⟩, ⟨true, 22, 4, 26, F, 0⟩, ⟨true, 23, 4, 18, F, 0⟩, ⟨true, 24, 4, 10, F, 0⟩,
  ⟨true, 25, 4, 2, F, 0⟩, ⟨true, 26, 4, 0, F, 6⟩, ⟨false, 26, 5, 36, F, 0⟩, ⟨true, 27, 5, 28, F, 0⟩,
  ⟨true, 28, 5, 20, F, 0⟩, ⟨true, 29, 5, 12, F, 0⟩, ⟨true, 30, 5, 4, F, 0⟩, ⟨true, 31, 5, 0, F, 4⟩,
  ⟨false, 31, 6, 38, F, 0⟩, ⟨true, 32, 6, 30, F, 0⟩, ⟨true, 33, 6, 22, F, 0⟩, ⟨true, 34, 6, 14, F, 0⟩,
  ⟨true, 35, 6, 6, F, 0⟩, ⟨true, 36, 6, 0, F, 2⟩, ⟨false, 36, 7, 40, F, 0⟩, ⟨true, 37, 7, 32, F, 0⟩,
  ⟨true, 38, 7, 24, F, 0⟩, ⟨true, 39, 7, 16, F, 0⟩, ⟨true, 40, 7, 8, F, 0⟩, ⟨true, 41, 7, 0, F, 0⟩]

/-- `packBits43` bit_packing.go l.1793-1851 -/
def pack43 : List Stmt := [
  ⟨true, 0, 0, 35, F, 0⟩, ⟨true, 1, 0, 27, F, 0⟩, ⟨true, 2, 0, 19, F, 0⟩, ⟨true, 3, 0, 11, F, 0⟩,
  ⟨true, 4, 0, 3, F, 0⟩, ⟨true, 5, 0, 0, F, 5⟩, ⟨false, 5, 1, 38, F, 0⟩, ⟨true, 6, 1, 30, F, 0⟩,
  ⟨true, 7, 1, 22, F, 0⟩, ⟨true, 8, 1, 14, F, 0⟩, ⟨true, 9, 1, 6, F, 0⟩, ⟨true, 10, 1, 0, F, 2⟩,
  ⟨false, 10, 2, 41, F, 0⟩, ⟨true, 11, 2, 33, F, 0⟩, ⟨true, 12, 2, 25, F, 0⟩, ⟨true, 13, 2, 17, F, 0⟩,
  ⟨true, 14, 2, 9, F, 0⟩, ⟨true, 15, 2, 1, F, 0⟩, ⟨true, 16, 2, 0, F, 7⟩, ⟨false, 16, 3, 36, F, 0⟩,
  ⟨true, 17, 3, 28, F, 0⟩, ⟨true, 18, 3, 20, F, 0⟩, ⟨true, 19, 3, 12, F, 0⟩, ⟨true, 20, 3, 4, F, 0⟩,
  ⟨true, 21, 3, 0, F, 4⟩, ⟨false, 21, 4, 39, F, 0⟩, ⟨true, 22, 4, 31, F, 0⟩, ⟨true, 23, 4, 23, F, 0⟩,
  ⟨true, 24, 4, 15, F, 0⟩, ⟨true, 25, 4, 7, F, 0⟩, ⟨true, 26, 4, 0, F, 1⟩, ⟨false, 26, 5, 42, F, 0⟩,
  ⟨true, 27, 5, 34, F, 0⟩, ⟨true, 28, 5, 26, F, 0⟩, ⟨true, 29, 5, 18, F, 0⟩, ⟨true, 30, 5, 10, F, 0⟩,
  ⟨true, 31, 5, 2, F, 0⟩, ⟨true, 32, 5, 0, F, 6⟩, ⟨false, 32, 6, 37, F, 0⟩, ⟨true, 33, 6, 29, F, 0⟩,
  ⟨true, 34, 6, 21, F, 0⟩, ⟨true, 35, 6, 13, F, 0⟩, ⟨true, 36, 6, 5, F, 0⟩, ⟨true, 37, 6, 0, F, 3⟩,
  ⟨false, 37, 7, 40, F, 0⟩, ⟨true, 38, 7, 32, F, 0⟩, ⟨true, 39, 7, 24, F, 0⟩, ⟨true, 40, 7, 16, F, 0⟩,
  ⟨true, 41, 7, 8, F, 0⟩, ⟨true, 42, 7, 0, F, 0⟩]

/-- `packBits44` bit_packing.go l.1853-1909 -/
def pack44 : List Stmt := [
  ⟨true, 0, 0, 36, F, 0⟩, ⟨true, 1, 0, 28, F, 0⟩, ⟨true, 2, 0, 20, F, 0⟩, ⟨true, 3, 0, 12, F, 0⟩,
  ⟨true, 4, 0, 4, F, 0⟩, ⟨true, 5, 0, 0, F, 4⟩, ⟨false, 5, 1, 40, F, 0⟩, ⟨true, 6, 1, 32, F, 0⟩,
  ⟨true, 7, 1, 24, F, 0⟩, ⟨true, 8, 1, 16, F, 0⟩, ⟨true, 9, 1, 8, F, 0⟩, ⟨true, 10, 1, 0, F, 0⟩,
  ⟨true, 11, 2, 36, F, 0⟩, ⟨true, 12, 2, 28, F, 0⟩, ⟨true, 13, 2, 20, F, 0⟩, ⟨true, 14, 2, 12, F, 0⟩,
  ⟨true, 15, 2, 4, F, 0⟩, ⟨true, 16, 2, 0, F, 4⟩, ⟨false, 16, 3, 40, F, 0⟩, ⟨true, 17, 3, 32, F, 0⟩,
  ⟨true, 18, 3, 24, F, 0⟩, ⟨true, 19, 3, 16, F, 0⟩, ⟨true, 20, 3, 8, F, 0⟩, ⟨true, 21, 3, 0, F, 0⟩,
  ⟨true, 22, 4, 36, F, 0⟩, ⟨true, 23, 4, 28, F, 0⟩, ⟨true, 24, 4, 20, F, 0⟩, ⟨true, 25, 4, 12, F, 0⟩,
  ⟨true, 26, 4, 4, F, 0⟩, ⟨true, 27, 4, 0, F, 4⟩, ⟨false, 27, 5, 40, F, 0⟩, ⟨true, 28, 5, 32, F, 0⟩,
  ⟨true, 29, 5, 24, F, 0⟩, ⟨true, 30, 5, 16, F, 0⟩, ⟨true, 31, 5, 8, F, 0⟩, ⟨true, 32, 5, 0, F, 0⟩,
  ⟨true, 33, 6, 36, F, 0⟩, ⟨true, 34, 6, 28, F, 0⟩, ⟨true, 35, 6, 20, F, 0⟩, ⟨true, 36, 6, 12, F, 0⟩,
  ⟨true, 37, 6, 4, F, 0⟩, ⟨true, 38, 6, 0, F, 4⟩, ⟨false, 38, 7, 40, F, 0⟩, ⟨true, 39, 7, 32, F, 0⟩,
  ⟨true, 40, 7, 24, F, 0⟩, ⟨true, 41, 7, 16, F, 0⟩, ⟨true, 42, 7, 8, F, 0⟩, ⟨true, 43, 7, 0, F, 0⟩]

/-- `packBits45` bit_packing.go l.1911-1971 -/
def pack45 : List Stmt := [
  ⟨true, 0, 0, 37, F, 0⟩, ⟨true, 1, 0, 29, F, 0⟩, ⟨true, 2, 0, 21, F, 0⟩, ⟨true, 3, 0, 13, F, 0⟩,
  ⟨true, 4, 0, 5, F, 0⟩, ⟨true, 5, 0, 0, F, 3⟩, ⟨false, 5, 1, 42, F, 0⟩, ⟨true, 6, 1, 34, F, 0⟩,
  ⟨true, 7, 1, 26, F, 0⟩, ⟨true, 8, 1, 18, F, 0⟩, ⟨true, 9, 1, 10, F, 0⟩, ⟨true, 10, 1, 2, F, 0⟩,
  ⟨true, 11, 1, 0, F, 6⟩, ⟨false, 11, 2, 39, F, 0⟩, ⟨true, 12, 2, 31, F, 0⟩, ⟨true, 13, 2, 23, F, 0⟩,
  ⟨true, 14, 2, 15, F, 0⟩, ⟨true, 15, 2, 7, F, 0⟩, ⟨true, 16, 2, 0, F, 1⟩, ⟨false, 16, 3, 44, F, 0⟩,
  ⟨true, 17, 3, 36, F, 0⟩, ⟨true, 18, 3, 28, F, 0⟩, ⟨true, 19, 3, 20, F, 0⟩, ⟨true, 20, 3, 12, F, 0⟩,
  ⟨true, 21, 3, 4, F, 0⟩, ⟨true, 22, 3, 0, F, 4⟩, ⟨false, 22, 4, 41, F, 0⟩, ⟨true, 23, 4, 33, F, 0⟩,
  ⟨true, 24, 4, 25, F, 0⟩, ⟨true, 25, 4, 17, F, 0⟩, ⟨true, 26, 4, 9, F, 0⟩, ⟨true, 27, 4, 1, F, 0⟩,
  ⟨true, 28, 4, 0, F, 7⟩, ⟨false, 28, 5, 38, F, 0⟩, ⟨true, 29, 5, 30, F, 0⟩, ⟨true, 30, 5, 22, F, 0⟩,
  ⟨true, 31, 5, 14, F, 0⟩, ⟨true, 32, 5, 6, F, 0⟩, ⟨true, 33, 5, 0, F, 2⟩, ⟨false, 33, 6, 43, F, 0⟩,
  ⟨true, 34, 6, 35, F, 0⟩, ⟨true, 35, 6, 27, F, 0⟩, ⟨true, 36, 6, 19, F, 0⟩, ⟨true, 37, 6, 11, F, 0⟩,
  ⟨true, 38, 6, 3, F, 0⟩, ⟨true, 39, 6, 0, F, 5⟩, ⟨false, 39, 7, 40, F, 0⟩, ⟨true, 40, 7, 32, F, 0⟩,
  ⟨true, 41, 7, 24, F, 0⟩, ⟨true, 42, 7, 16, F, 0⟩, ⟨true, 43, 7, 8, F, 0⟩, ⟨true, 44, 7, 0, F, 0⟩]

/-- `packBits46` bit_packing.go l.1973-2033 -/
def pack46 : List Stmt := [
  ⟨true, 0, 0, 38, F, 0⟩, ⟨true, 1, 0, 30, F, 0⟩, ⟨true, 2, 0, 22, F, 0⟩, ⟨true, 3, 0, 14, F, 0⟩,
  ⟨true, 4, 0, 6, F, 0⟩, ⟨true, 5, 0, 0, F, 2⟩, ⟨false, 5, 1, 44, F, 0⟩, ⟨true, 6, 1, 36, F, 0⟩,
  ⟨true, 7, 1, 28, F, 0⟩, ⟨true, 8, 1, 20, F, 0⟩, ⟨true, 9, 1, 12, F, 0⟩, ⟨true, 10, 1, 4, F, 0⟩,
  ⟨true, 11, 1, 0, F, 4⟩, ⟨false, 11, 2, 42, F, 0⟩, ⟨true, 12, 2, 34, F, 0⟩, ⟨true, 13, 2, 26, F, 0⟩,
  ⟨true, 14, 2, 18, F, 0⟩, ⟨true, 15, 2, 10, F, 0⟩, ⟨true, 16, 2, 2, F, 0⟩, ⟨true, 17, 2, 0, F, 6⟩,
  ⟨false, 17, 3, 40, F, 0⟩, ⟨true, 18, 3, 32, F, 0⟩, ⟨true, 19, 3, 24, F, 0⟩, ⟨true, 20, 3, 16, F, 0⟩,
  ⟨true, 21, 3, 8, F, 0⟩, ⟨true, 22, 3, 0, F, 0⟩, ⟨true, 23, 4, 38, F, 0⟩, ⟨true, 24, 4, 30, F, 0⟩,
  ⟨true, 25, 4, 22, F, 0⟩, ⟨true, 26, 4, 14, F, 0⟩, ⟨true, 27, 4, 6, F, 0⟩, ⟨true, 28, 4, 0, F, 2⟩,
  ⟨false, 28, 5, 44, F, 0⟩, ⟨true, 29, 5, 36, F, 0⟩, ⟨true, 30, 5, 28, F, 0⟩, ⟨true, 31, 5, 20, F, 0⟩,
  ⟨true, 32, 5, 12, F, 0⟩, ⟨true, 33, 5, 4, F, 0⟩, ⟨true, 34, 5, 0, F, 4⟩, ⟨false, 34, 6, 42, F, 0⟩,
  ⟨true, 35, 6, 34, F, 0⟩, ⟨true, 36, 6, 26, F, 0⟩, ⟨true, 37, 6, 18, F, 0⟩, ⟨true, 38, 6, 10, F, 0⟩,
  ⟨true, 39, 6, 2, F, 0⟩, ⟨true, 40, 6, 0, F, 6⟩, ⟨false, 40, 7, 40, F, 0⟩, ⟨true, 41, 7, 32, F, 0⟩,
  ⟨true, 42, 7, 24, F, 0⟩, ⟨true, 43, 7, 16, F, 0⟩, ⟨true, 44, 7, 8, F, 0⟩, ⟨true, 45, 7, 0, F, 0⟩]

/-- `packBits47` bit_packing.go l.2035-2097 -/
def pack47 : List Stmt := [
  ⟨true, 0, 0, 39, F, 0⟩, ⟨true, 1, 0, 31, F, 0⟩, ⟨true, 2, 0, 23, F, 0⟩, ⟨true, 3, 0, 15, F, 0⟩,
  ⟨true, 4, 0, 7, F, 0⟩, ⟨true, 5, 0, 0, F, 1⟩, ⟨false, 5, 1, 46, F, 0⟩, ⟨true, 6, 1, 38, F, 0⟩,
  ⟨true, 7, 1, 30, F, 0⟩, ⟨true, 8, 1, 22, F, 0⟩, ⟨true, 9, 1, 14, F, 0⟩, ⟨true, 10, 1, 6, F, 0⟩,
  ⟨true, 11, 1, 0, F, 2⟩, ⟨false, 11, 2, 45, F, 0⟩, ⟨true, 12, 2, 37, F, 0⟩, ⟨true, 13, 2, 29, F, 0⟩,
  ⟨true, 14, 2, 21, F, 0⟩, ⟨true, 15, 2, 13, F, 0⟩, ⟨true, 16, 2, 5, F, 0⟩, ⟨true, 17, 2, 0, F, 3⟩,
  ⟨false, 17, 3, 44, F, 0⟩, ⟨true, 18, 3, 36, F, 0⟩, ⟨true, 19, 3, 28, F, 0⟩, ⟨true, 20, 3, 20, F, 0⟩,
  ⟨true, 21, 3, 12, F, 0⟩, ⟨true, 22, 3, 4, F, 0⟩, ⟨true, 23, 3, 0, F, 4⟩, ⟨false, 23, 4, 43, F, 0⟩,
  ⟨true, 24, 4, 35, F, 0⟩, ⟨true, 25, 4, 27, F, 0⟩, ⟨true, 26, 4, 19, F, 0⟩, ⟨true, 27, 4, 11, F, 0⟩,
  ⟨true, 28, 4, 3, F, 0⟩, ⟨true, 29, 4, 0, F, 5⟩, ⟨false, 29, 5, 42, F, 0⟩, ⟨true, 30, 5, 34, F, 0⟩,
  ⟨true, 31, 5, 26, F, 0⟩, ⟨true, 32, 5, 18, F, 0⟩, ⟨true, 33, 5, 10, F, 0⟩, ⟨true, 34, 5, 2, F, 0⟩,
  ⟨true, 35, 5, 0, F, 6⟩, ⟨false, 35, 6, 41, F, 0⟩, ⟨true, 36, 6, 33, F, 0⟩, ⟨true, 37, 6, 25, F, 0⟩,
  ⟨true, 38, 6, 17, F, 0⟩, ⟨true, 39, 6, 9, F, 0⟩, ⟨true, 40, 6, 1, F, 0⟩, ⟨true, 41, 6, 0, F, 7⟩,
  ⟨false, 41, 7, 40, F, 0⟩, ⟨true, 42, 7, 32, F, 0⟩, ⟨true, 43, 7, 24, F, 0⟩, ⟨true, 44, 7, 16, F, 0⟩,
  ⟨true, 45, 7, 8, F, 0⟩, ⟨true, 46, 7, 0, F, 0⟩]

/-- `packBits48` bit_packing.go l.2099-2155 -/
def pack48 : List Stmt := [
  ⟨true, 0, 0, 40, F, 0⟩, ⟨true, 1, 0, 32, F, 0⟩, ⟨true, 2, 0, 24, F, 0⟩, ⟨true, 3, 0, 16, F, 0⟩,
  ⟨true, 4, 0, 8, F, 0⟩, ⟨true, 5, 0, 0, F, 0⟩, ⟨true, 6, 1, 40, F, 0⟩, ⟨true, 7, 1, 32, F, 0⟩,
  ⟨true, 8, 1, 24, F, 0⟩, ⟨true, 9, 1, 16, F, 0⟩, ⟨true, 10, 1, 8, F, 0⟩, ⟨true, 11, 1, 0, F, 0⟩,
  ⟨true, 12, 2, 40, F, 0⟩, ⟨true, 13, 2, 32, F, 0⟩, ⟨true, 14, 2, 24, F, 0⟩, ⟨true, 15, 2, 16, F, 0⟩,
  ⟨true, 16, 2, 8, F, 0⟩, ⟨true, 17, 2, 0, F, 0⟩, ⟨true, 18, 3, 40, F, 0⟩, ⟨true, 19, 3, 32, F, 0⟩,
  ⟨true, 20, 3, 24, F, 0⟩, ⟨true, 21, 3, 16, F, 0⟩, ⟨true, 22, 3, 8, F, 0⟩, ⟨true, 23, 3, 0, F, 0⟩,
  ⟨true, 24, 4, 40, F, 0⟩, ⟨true, 25, 4, 32, F, 0⟩, ⟨true, 26, 4, 24, F, 0⟩, ⟨true, 27, 4, 16, F, 0⟩,
  ⟨true, 28, 4, 8, F, 0⟩, ⟨true, 29, 4, 0, F, 0⟩, ⟨true, 30, 5, 40, F, 0⟩, ⟨true, 31, 5, 32, F, 0⟩,
  ⟨true, 32, 5, 24, F, 0⟩, ⟨true, 33, 5, 16, F, 0⟩, ⟨true, 34, 5, 8, F, 0⟩, ⟨true, 35, 5, 0, F, 0⟩,
  ⟨true, 36, 6, 40, F, 0⟩, ⟨true, 37, 6, 32, F, 0⟩, ⟨true, 38, 6, 24, F, 0⟩, ⟨true, 39, 6, 16, F, 0⟩,
  ⟨true, 40, 6, 8, F, 0⟩, ⟨true, 41, 6, 0, F, 0⟩, ⟨true, 42, 7, 40, F, 0⟩, ⟨true, 43, 7, 32, F, 0⟩,
  ⟨true, 44, 7, 24, F, 0⟩, ⟨true, 45, 7, 16, F, 0⟩, ⟨true, 46, 7, 8, F, 0⟩, ⟨true, 47, 7, 0, F, 0⟩]

/-- `packBits49` bit_packing.go l.2157-2221 -/
def pack49 : List Stmt := [
  ⟨true, 0, 0, 41, F, 0⟩, ⟨true, 1, 0, 33, F, 0⟩, ⟨true, 2, 0, 25, F, 0⟩, ⟨true, 3, 0, 17, F, 0⟩,
  ⟨true, 4, 0, 9, F, 0⟩, ⟨true, 5, 0, 1, F, 0⟩, ⟨true, 6, 0, 0, F, 7⟩, ⟨false, 6, 1, 42, F, 0⟩,
  ⟨true, 7, 1, 34, F, 0⟩, ⟨true, 8, 1, 26, F, 0⟩, ⟨true, 9, 1, 18, F, 0⟩, ⟨true, 10, 1, 10, F, 0⟩,
  ⟨true, 11, 1, 2, F, 0⟩, ⟨true, 12, 1, 0, F, 6⟩, ⟨false, 12, 2, 43, F, 0⟩, ⟨true, 13, 2, 35, F, 0⟩,
  ⟨true, 14, 2, 27, F, 0⟩, ⟨true, 15, 2, 19, F, 0⟩, ⟨true, 16, 2, 11, F, 0⟩, ⟨true, 17, 2, 3, F, 0⟩,
  ⟨true, 18, 2, 0, F, 5⟩, ⟨false, 18, 3, 44, F, 0⟩, ⟨true, 19, 3, 36, F, 0⟩, ⟨true, 20, 3, 28, F, 0⟩,
  ⟨true, 21, 3, 20, F, 0⟩, ⟨true, 22, 3, 12, F, 0⟩, ⟨true, 23, 3, 4, F, 0⟩, ⟨true, 24, 3, 0, F, 4⟩,
  ⟨false, 24, 4, 45, F, 0⟩, ⟨true, 25, 4, 37, F, 0⟩, ⟨true, 26, 4, 29, F, 0⟩, ⟨true, 27, 4, 21, F, 0⟩,
  ⟨true, 28, 4, 13, F, 0⟩, ⟨true, 29, 4, 5, F, 0⟩, ⟨true, 30, 4, 0, F, 3⟩, ⟨false, 30, 5, 46, F, 0⟩,
  ⟨true, 31, 5, 38, F, 0⟩, ⟨true, 32, 5, 30, F, 0⟩, ⟨true, 33, 5, 22, F, 0⟩, ⟨true, 34, 5, 14, F, 0⟩,
  ⟨true, 35, 5, 6, F, 0⟩, ⟨true, 36, 5, 0, F, 2⟩, ⟨false, 36, 6, 47, F, 0⟩, ⟨true, 37, 6, 39, F, 0⟩,
  ⟨true, 38, 6, 31, F, 0⟩, ⟨true, 39, 6, 23, F, 0⟩, ⟨true, 40, 6, 15, F, 0⟩, ⟨true, 41, 6, 7, F, 0⟩,
  ⟨true, 42, 6, 0, F, 1⟩, ⟨false, 42, 7, 48, F, 0⟩, ⟨true, 43, 7, 40, F, 0⟩, ⟨true, 44, 7, 32, F, 0⟩,
  ⟨true, 45, 7, 24, F, 0⟩, ⟨true, 46, 7, 16, F, 0⟩, ⟨true, 47, 7, 8, F, 0⟩, ⟨true, 48, 7, 0, F, 0⟩]

/-- `packBits50` bit_packing.go l.2223-2287 -/
def pack50 : List Stmt := [
  ⟨true, 0, 0, 42, F, 0⟩, ⟨true, 1, 0, 34, F, 0⟩, ⟨true, 2, 0, 26, F, 0⟩, ⟨true, 3, 0, 18, F, 0⟩,
  ⟨true, 4, 0, 10, F, 0⟩, ⟨true, 5, 0, 2, F, 0⟩, ⟨true, 6, 0, 0, F, 6⟩, ⟨false, 6, 1, 44, F, 0⟩,
  ⟨true, 7, 1, 36, F, 0⟩, ⟨true, 8, 1, 28, F, 0⟩, ⟨true, 9, 1, 20, F, 0⟩, ⟨true, 10, 1, 12, F, 0⟩,
  ⟨true, 11, 1, 4, F, 0⟩, ⟨true, 12, 1, 0, F, 4⟩, ⟨false, 12, 2, 46, F, 0⟩, ⟨true, 13, 2, 38, F, 0⟩,
  ⟨true, 14, 2, 30, F, 0⟩, ⟨true, 15, 2, 22, F, 0⟩, ⟨true, 16, 2, 14, F, 0⟩, ⟨true, 17, 2, 6, F, 0⟩,
  ⟨true, 18, 2, 0, F, 2⟩, ⟨false, 18, 3, 48, F, 0⟩, ⟨true, 19, 3, 40, F, 0⟩, ⟨true, 20, 3, 32, F, 0⟩,
  ⟨true, 21, 3, 24, F, 0⟩, ⟨true, 22, 3, 16, F, 0⟩, ⟨true, 23, 3, 8, F, 0⟩, ⟨true, 24, 3, 0, F, 0⟩,
  ⟨true, 25, 4, 42, F, 0⟩, ⟨true, 26, 4, 34, F, 0⟩, ⟨true, 27, 4, 26, F, 0⟩, ⟨true, 28, 4, 18, F, 0⟩,
  ⟨true, 29, 4, 10, F, 0⟩, ⟨true, 30, 4, 2, F, 0⟩, ⟨true, 31, 4, 0, F, 6⟩, ⟨false, 31, 5, 44, F, 0⟩,
  ⟨true, 32, 5, 36, F, 0⟩, ⟨true, 33, 5, 28, F, 0⟩, ⟨true, 34, 5, 20, F, 0⟩, ⟨true, 35, 5, 12, F, 0⟩,
  ⟨true, 36, 5, 4, F, 0⟩, ⟨true, 37, 5, 0, F, 4⟩, ⟨false, 37, 6, 46, F, 0⟩, ⟨true, 38, 6, 38, F, 0⟩,
  ⟨true, 39, 6, 30, F, 0⟩, ⟨true, 40, 6, 22, F, 0⟩, ⟨true, 41, 6, 14, F, 0⟩, ⟨true, 42, 6, 6, F, 0⟩,
  ⟨true, 43, 6, 0, F, 2⟩, ⟨false, 43, 7, 48, F, 0⟩, ⟨true, 44, 7, 40, F, 0⟩, ⟨true, 45, 7, 32, F, 0⟩,
  ⟨true, 46, 7, 24, F, 0⟩, ⟨true, 47, 7, 16, F, 0⟩, ⟨true, 48, 7, 8, F, 0⟩, ⟨true, 49, 7, 0, F, 0⟩]

/-- `packBits51` bit_packing.go l.2289-2355 -/
def pack51 : List Stmt := [
  ⟨true, 0, 0, 43, F, 0⟩, ⟨true, 1, 0, 35, F, 0⟩, ⟨true, 2, 0, 27, F, 0⟩, ⟨true, 3, 0, 19, F, 0⟩,
  ⟨true, 4, 0, 11, F, 0⟩, ⟨true, 5, 0, 3, F, 0⟩, ⟨true, 6, 0, 0, F, 5⟩, ⟨false, 6, 1, 46, F, 0⟩,
  ⟨true, 7, 1, 38, F, 0⟩, ⟨true, 8, 1, 30, F, 0⟩, ⟨true, 9, 1, 22, F, 0⟩, ⟨true, 10, 1, 14, F, 0⟩,
  ⟨true, 11, 1, 6, F, 0⟩, ⟨true, 12, 1, 0, F, 2⟩, ⟨false, 12, 2, 49, F, 0⟩, ⟨true, 13, 2, 41, F, 0⟩,
  ⟨true, 14, 2, 33, F, 0⟩, ⟨true, 15, 2, 25, F, 0⟩, ⟨true, 16, 2, 17, F, 0⟩, ⟨true, 17, 2, 9, F, 0⟩,
  ⟨true, 18, 2, 1, F, 0⟩, ⟨true, 19, 2, 0, F, 7⟩, ⟨false, 19, 3, 44, F, 0⟩, ⟨true, 20, 3, 36, F, 0⟩,
  ⟨true, 21, 3, 28, F, 0⟩, ⟨true, 22, 3, 20, F, 0⟩, ⟨true, 23, 3, 12, F, 0⟩, ⟨true, 24, 3, 4, F, 0⟩,
  ⟨true, 25, 3, 0, F, 4⟩, ⟨false, 25, 4, 47, F, 0⟩, ⟨true, 26, 4, 39, F, 0⟩, ⟨true, 27, 4, 31, F, 0⟩,
  ⟨true, 28, 4, 23, F, 0⟩, ⟨true, 29, 4, 15, F, 0⟩, ⟨true, 30, 4, 7, F, 0⟩, ⟨true, 31, 4, 0, F, 1⟩,
  ⟨false, 31, 5, 50, F, 0⟩, ⟨true, 32, 5, 42, F, 0⟩, ⟨true, 33, 5, 34, F, 0⟩, ⟨true, 34, 5, 26, F, 0⟩,
  ⟨true, 35, 5, 18, F, 0⟩, ⟨true, 36, 5, 10, F, 0⟩, ⟨true, 37, 5, 2, F, 0⟩, ⟨true, 38, 5, 0, F, 6⟩,
  ⟨false, 38, 6, 45, F, 0⟩, ⟨true, 39, 6, 37, F, 0⟩, ⟨true, 40, 6, 29, F, 0⟩, ⟨true, 41, 6, 21, F, 0⟩,
  ⟨true, 42, 6, 13, F, 0⟩, ⟨true, 43, 6, 5, F, 0⟩, ⟨true, 44, 6, 0, F, 3⟩, ⟨false, 44, 7, 48, F, 0⟩,
  ⟨true, 45, 7, 40, F, 0⟩, ⟨true, 46, 7, 32, F, 0⟩, ⟨true, 47, 7, 24, F, 0⟩, ⟨true, 48, 7, 16, F, 0⟩,
  ⟨true, 49, 7, 8, F, 0⟩, ⟨true, 50, 7, 0, F, 0⟩]

/-- `packBits52` bit_packing.go l.2357-2421 -/
def pack52 : List Stmt := [
  ⟨true, 0, 0, 44, F, 0⟩, ⟨true, 1, 0, 36, F, 0⟩, ⟨true, 2, 0, 28, F, 0⟩, ⟨true, 3, 0, 20, F, 0⟩,
  ⟨true, 4, 0, 12, F, 0⟩, ⟨true, 5, 0, 4, F, 0⟩, ⟨true, 6, 0, 0, F, 4⟩, ⟨false, 6, 1, 48, F, 0⟩,
  ⟨true, 7, 1, 40, F, 0⟩, ⟨true, 8, 1, 32, F, 0⟩, ⟨true, 9, 1, 24, F, 0⟩, ⟨true, 10, 1, 16, F, 0⟩,
  ⟨true, 11, 1, 8, F, 0⟩, ⟨true, 12, 1, 0, F, 0⟩, ⟨true, 13, 2, 44, F, 0⟩, ⟨true, 14, 2, 36, F, 0⟩,
  ⟨true, 15, 2, 28, F, 0⟩, ⟨true, 16, 2, 20, F, 0⟩, ⟨true, 17, 2, 12, F, 0⟩, ⟨true, 18, 2, 4, F, 0⟩,
  ⟨true, 19, 2, 0, F, 4⟩, ⟨false, 19, 3, 48, F, 0⟩, ⟨true, 20, 3, 40, F, 0⟩, ⟨true, 21, 3, 32, F, 0⟩,
  ⟨true, 22, 3, 24, F, 0⟩, ⟨true, 23, 3, 16, F, 0⟩, ⟨true, 24, 3, 8, F, 0⟩, ⟨true, 25, 3, 0, F, 0⟩,
  ⟨true, 26, 4, 44, F, 0⟩, ⟨true, 27, 4, 36, F, 0⟩, ⟨true, 28, 4, 28, F, 0⟩, ⟨true, 29, 4, 20, F, 0⟩,
  ⟨true, 30, 4, 12, F, 0⟩, ⟨true, 31, 4, 4, F, 0⟩, ⟨true, 32, 4, 0, F, 4⟩, ⟨false, 32, 5, 48, F, 0⟩,
  ⟨true, 33, 5, 40, F, 0⟩, ⟨true, 34, 5, 32, F, 0⟩, ⟨true, 35, 5, 24, F, 0⟩, ⟨true, 36, 5, 16, F, 0⟩,
  ⟨true, 37, 5, 8, F, 0⟩, ⟨true, 38, 5, 0, F, 0⟩, ⟨true, 39, 6, 44, F, 0⟩, ⟨true, 40, 6, 36, F, 0⟩,
  ⟨true, 41, 6, 28, F, 0⟩, ⟨true, 42, 6, 20, F, 0⟩, ⟨true, 43, 6, 12, F, 0⟩, ⟨true, 44, 6, 4, F, 0⟩,
  ⟨true, 45, 6, 0, F, 4⟩, ⟨false, 45, 7, 48, F, 0⟩, ⟨true, 46, 7, 40, F, 0⟩, ⟨true, 47, 7, 32, F, 0⟩,
  ⟨true, 48, 7, 24, F, 0⟩, ⟨true, 49, 7, 16, F, 0⟩, ⟨true, 50, 7, 8, F, 0⟩, ⟨true, 51, 7, 0, F, 0⟩]

/-- `packBits53` bit_packing.go l.2423-2491 -/
def pack53 : List Stmt := [
  ⟨true, 0, 0, 45, F, 0⟩, ⟨true, 1, 0, 37, F, 0⟩, ⟨true, 2, 0, 29, F, 0⟩, ⟨true, 3, 0, 21, F, 0⟩,
  ⟨true, 4, 0, 13, F, 0⟩, ⟨true, 5, 0, 5, F, 0⟩, ⟨true, 6, 0, 0, F, 3⟩, ⟨false, 6, 1, 50, F, 0⟩,
  ⟨true, 7, 1, 42, F, 0⟩, ⟨true, 8, 1, 34, F, 0⟩, ⟨true, 9, 1, 26, F, 0⟩, ⟨true, 10, 1, 18, F, 0⟩,
  ⟨true, 11, 1, 10, F, 0⟩, ⟨true, 12, 1, 2, F, 0⟩, ⟨true, 13, 1, 0, F, 6⟩, ⟨false, 13, 2, 47, F, 0⟩,
  ⟨true, 14, 2, 39, F, 0⟩, ⟨true, 15, 2, 31, F, 0⟩, ⟨true, 16, 2, 23, F, 0⟩, ⟨true, 17, 2, 15, F, 0⟩,
  ⟨true, 18, 2, 7, F, 0⟩, ⟨true, 19, 2, 0, F, 1⟩, ⟨false, 19, 3, 52, F, 0⟩, ⟨true, 20, 3, 44, F, 0⟩,
  ⟨true, 21, 3, 36, F, 0⟩, ⟨true, 22, 3, 28, F, 0⟩, ⟨true, 23, 3, 20, F, 0⟩, ⟨true, 24, 3, 12, F, 0⟩,
  ⟨true, 25, 3, 4, F, 0⟩, ⟨true, 26, 3, 0, F, 4⟩, ⟨false, 26, 4, 49, F, 0⟩, ⟨true, 27, 4, 41, F, 0⟩,
  ⟨true, 28, 4, 33, F, 0⟩, ⟨true, 29, 4, 25, F, 0⟩, ⟨true, 30, 4, 17, F, 0⟩, ⟨true, 31, 4, 9, F, 0⟩,
  ⟨true, 32, 4, 1, F, 0⟩, ⟨true, 33, 4, 0, F, 7⟩, ⟨false, 33, 5, 46, F, 0⟩, ⟨true, 34, 5, 38, F, 0⟩,
  ⟨true, 35, 5, 30, F, 0⟩, ⟨true, 36, 5, 22, F, 0⟩, ⟨true, 37, 5, 14, F, 0⟩, ⟨true, 38, 5, 6, F, 0⟩,
  ⟨true, 39, 5, 0, F, 2⟩, ⟨false, 39, 6, 51, F, 0⟩, ⟨true, 40, 6, 43, F, 0⟩, ⟨true, 41, 6, 35, F, 0⟩,
  ⟨true, 42, 6, 27, F, 0⟩, ⟨true, 43, 6, 19, F, 0⟩, ⟨true, 44, 6, 11, F, 0⟩, ⟨true, 45, 6, 3, F, 0⟩,
  ⟨true, 46, 6, 0, F, 5⟩, ⟨false, 46, 7, 48, F, 0⟩, ⟨true, 47, 7, 40, F, 0⟩, ⟨true, 48, 7, 32, F, 0⟩,
  ⟨true, 49, 7, 24, F, 0⟩, ⟨true, 50, 7, 16, F, 0⟩, ⟨true, 51, 7, 8, F, 0⟩, ⟨true, 52, 7, 0, F, 0⟩]

/-- `packBits54` bit_packing.go l.2493-2561 -/
def pack54 : List Stmt := [
  ⟨true, 0, 0, 46, F, 0⟩, ⟨true, 1, 0, 38, F, 0⟩, ⟨true, 2, 0, 30, F, 0⟩, ⟨true, 3, 0, 22, F, 0⟩,
  ⟨true, 4, 0, 14, F, 0⟩, ⟨true, 5, 0, 6, F, 0⟩, ⟨true, 6, 0, 0, F, 2⟩, ⟨false, 6, 1, 52, F, 0⟩,
  ⟨true, 7, 1, 44, F, 0⟩, ⟨true, 8, 1, 36, F, 0⟩, ⟨true, 9, 1, 28, F, 0⟩, ⟨true, 10, 1, 20, F, 0⟩,
  ⟨true, 11, 1, 12, F, 0⟩, ⟨true, 12, 1, 4, F, 0⟩, ⟨true, 13, 1, 0, F, 4⟩, ⟨false, 13, 2, 50, F, 0⟩,
  ⟨true, 14, 2, 42, F, 0⟩, ⟨true, 15, 2, 34, F, 0⟩, ⟨true, 16, 2, 26, F, 0⟩, ⟨true, 17, 2, 18, F, 0⟩,
  ⟨true, 18, 2, 10, F, 0⟩, ⟨true, 19, 2, 2, F, 0⟩, ⟨true, 20, 2, 0, F, 6⟩, ⟨false, 20, 3, 48, F, 0⟩,
  ⟨true, 21, 3, 40, F, 0⟩, ⟨true, 22, 3, 32, F, 0⟩, ⟨true, 23, 3, 24, F, 0⟩, ⟨true, 24, 3, 16, F, 0⟩,
  ⟨true, 25, 3, 8, F, 0⟩, ⟨true, 26, 3, 0, F, 0⟩, ⟨true, 27, 4, 46, F, 0⟩, ⟨true, 28, 4, 38, F, 0⟩,
  ⟨true, 29, 4, 30, F, 0⟩, ⟨true, 30, 4, 22, F, 0⟩, ⟨true, 31, 4, 14, F, 0⟩, ⟨true, 32, 4, 6, F, 0⟩,
  ⟨true, 33, 4, 0, F, 2⟩, ⟨false, 33, 5, 52, F, 0⟩, ⟨true, 34, 5, 44, F, 0⟩, ⟨true, 35, 5, 36, F, 0⟩,
  ⟨true, 36, 5, 28, F, 0⟩, ⟨true, 37, 5, 20, F, 0⟩, ⟨true, 38, 5, 12, F, 0⟩, ⟨true, 39, 5, 4, F, 0⟩,
  ⟨true, 40, 5, 0, F, 4⟩, ⟨false, 40, 6, 50, F, 0⟩, ⟨true, 41, 6, 42, F, 0⟩, ⟨true, 42, 6, 34, F, 0⟩,
  ⟨true, 43, 6, 26, F, 0⟩, ⟨true, 44, 6, 18, F, 0⟩, ⟨true, 45, 6, 10, F, 0⟩, ⟨true, 46, 6, 2, F, 0⟩,
  ⟨true, 47, 6, 0, F, 6⟩, ⟨false, 47, 7, 48, F, 0⟩, ⟨true, 48, 7, 40, F, 0⟩, ⟨true, 49, 7, 32, F, 0⟩,
  ⟨true, 50, 7, 24, F, 0⟩, ⟨true, 51, 7, 16, F, 0⟩, ⟨true, 52, 7, 8, F, 0⟩, ⟨true, 53, 7, 0, F, 0⟩]

/-- `packBits55` bit_packing.go l.2563-2633 -/
def pack55 : List Stmt := [
  ⟨true, 0, 0, 47, F, 0⟩, ⟨true, 1, 0, 39, F, 0⟩, ⟨true, 2, 0, 31, F, 0⟩, ⟨true, 3, 0, 23, F, 0⟩,
  ⟨true, 4, 0, 15, F, 0⟩, ⟨true, 5, 0, 7, F, 0⟩, ⟨true, 6, 0, 0, F, 1⟩, ⟨false, 6, 1, 54, F, 0⟩,
  ⟨true, 7, 1, 46, F, 0⟩, ⟨true, 8, 1, 38, F, 0⟩, ⟨true, 9, 1, 30, F, 0⟩, ⟨true, 10, 1, 22, F, 0⟩,
  ⟨true, 11, 1, 14, F, 0⟩, ⟨true, 12, 1, 6, F, 0⟩, ⟨true, 13, 1, 0, F, 2⟩, ⟨false, 13, 2, 53, F, 0⟩,
  ⟨true, 14, 2, 45, F, 0⟩, ⟨true, 15, 2, 37, F, 0⟩, ⟨true, 16, 2, 29, F, 0⟩, ⟨true, 17, 2, 21, F, 0⟩,
  ⟨true, 18, 2, 13, F, 0⟩, ⟨true, 19, 2, 5, F, 0⟩, ⟨true, 20, 2, 0, F, 3⟩, ⟨false, 20, 3, 52, F, 0⟩,
  ⟨true, 21, 3, 44, F, 0⟩, ⟨true, 22, 3, 36, F, 0⟩, ⟨true, 23, 3, 28, F, 0⟩, ⟨true, 24, 3, 20, F, 0⟩,
  ⟨true, 25, 3, 12, F, 0⟩, ⟨true, 26, 3, 4, F, 0⟩, ⟨true, 27, 3, 0, F, 4⟩, ⟨false, 27, 4, 51, F, 0⟩,
  ⟨true, 28, 4, 43, F, 0⟩, ⟨true, 29, 4, 35, F, 0⟩, ⟨true, 30, 4, 27, F, 0⟩, ⟨true, 31, 4, 19, F, 0⟩,
  ⟨true, 32, 4, 11, F, 0⟩, ⟨true, 33, 4, 3, F, 0⟩, ⟨true, 34, 4, 0, F, 5⟩, ⟨false, 34, 5, 50, F, 0⟩,
  ⟨true, 35, 5, 42, F, 0⟩, ⟨true, 36, 5, 34, F, 0⟩, ⟨true, 37, 5, 26, F, 0⟩, ⟨true, 38, 5, 18, F, 0⟩,
  ⟨true, 39, 5, 10, F, 0⟩, ⟨true, 40, 5, 2, F, 0⟩, ⟨true, 41, 5, 0, F, 6⟩, ⟨false, 41, 6, 49, F, 0⟩,
  ⟨true, 42, 6, 41, F, 0⟩, ⟨true, 43, 6, 33, F, 0⟩, ⟨true, 44, 6, 25, F, 0⟩, ⟨true, 45, 6, 17, F, 0⟩,
  ⟨true, 46, 6, 9, F, 0⟩, ⟨true, 47, 6, 1, F, 0⟩, ⟨true, 48, 6, 0, F, 7⟩, ⟨false, 48, 7, 48, F, 0⟩,
  ⟨true, 49, 7, 40, F, 0⟩, ⟨true, 50, 7, 32, F, 0⟩, ⟨true, 51, 7, 24, F, 0⟩, ⟨true, 52, 7, 16, F, 0⟩,
  ⟨true, 53, 7, 8, F, 0⟩, ⟨true, 54, 7, 0, F, 0⟩]

/-- `packBits56` bit_packing.go l.2635-2699 -/
def pack56 : List Stmt := [
  ⟨true, 0, 0, 48, F, 0⟩, ⟨true, 1, 0, 40, F, 0⟩, ⟨true, 2, 0, 32, F, 0⟩, ⟨true, 3, 0, 24, F, 0⟩,
  ⟨true, 4, 0, 16, F, 0⟩, ⟨true, 5, 0, 8, F, 0⟩, ⟨true, 6, 0, 0, F, 0⟩, ⟨true, 7, 1, 48, F, 0⟩,
  ⟨true, 8, 1, 40, F, 0⟩, ⟨true, 9, 1, 32, F, 0⟩, ⟨true, 10, 1, 24, F, 0⟩, ⟨true, 11, 1, 16, F, 0⟩,
  ⟨true, 12, 1, 8, F, 0⟩, ⟨true, 13, 1, 0, F, 0⟩, ⟨true, 14, 2, 48, F, 0⟩, ⟨true, 15, 2, 40, F, 0⟩,
  ⟨true, 16, 2, 32, F, 0⟩, ⟨true, 17, 2, 24, F, 0⟩, ⟨true, 18, 2, 16, F, 0⟩, ⟨true, 19, 2, 8, F, 0⟩,
  ⟨true, 20, 2, 0, F, 0⟩, ⟨true, 21, 3, 48, F, 0⟩, ⟨true, 22, 3, 40, F, 0⟩, ⟨true, 23, 3, 32, F, 0⟩,
  ⟨true, 24, 3, 24, F, 0⟩, ⟨true, 25, 3, 16, F, 0⟩, ⟨true, 26, 3, 8, F, 0⟩, ⟨true, 27, 3, 0, F, 0⟩,
  ⟨true, 28, 4, 48, F, 0⟩, ⟨true, 29, 4, 40, F, 0⟩, ⟨true, 30, 4, 32, F, 0⟩, ⟨true, 31, 4, 24, F, 0⟩,
  ⟨true, 32, 4, 16, F, 0⟩, ⟨true, 33, 4, 8, F, 0⟩, ⟨true, 34, 4, 0, F, 0⟩, ⟨true, 35, 5, 48, F, 0⟩,
  ⟨true, 36, 5, 40, F, 0⟩, ⟨true, 37, 5, 32, F, 0⟩, ⟨true, 38, 5, 24, F, 0⟩, ⟨true, 39, 5, 16, F, 0⟩,
  ⟨true, 40, 5, 8, F, 0⟩, ⟨true, 41, 5, 0, F, 0⟩, ⟨true, 42, 6, 48, F, 0⟩, ⟨true, 43, 6, 40, F, 0⟩,
  ⟨true, 44, 6, 32, F, 0⟩, ⟨true, 45, 6, 24, F, 0⟩, ⟨true, 46, 6, 16, F, 0⟩, ⟨true, 47, 6, 8, F, 0⟩,
  ⟨true, 48, 6, 0, F, 0⟩, ⟨true, 49, 7, 48, F, 0⟩, ⟨true, 50, 7, 40, F, 0⟩, ⟨true, 51, 7, 32, F, 0⟩,
  ⟨true, 52, 7, 24, F, 0⟩, ⟨true, 53, 7, 16, F, 0⟩, ⟨true, 54, 7, 8, F, 0⟩, ⟨true, 55, 7, 0, F, 0⟩]

/-- `packBits57` bit_packing.go l.2701-2773 -/
def pack57 : List Stmt := [
  ⟨true, 0, 0, 49, F, 0⟩, ⟨true, 1, 0, 41, F, 0⟩, ⟨true, 2, 0, 33, F, 0⟩, ⟨true, 3, 0, 25, F, 0⟩,
  ⟨true, 4, 0, 17, F, 0⟩, ⟨true, 5, 0, 9, F, 0⟩, ⟨true, 6, 0, 1, F, 0⟩, ⟨true, 7, 0, 0, F, 7⟩,
  ⟨false, 7, 1, 50, F, 0⟩, ⟨true, 8, 1, 42, F, 0⟩, ⟨true, 9, 1, 34, F, 0⟩, ⟨true, 10, 1, 26, F, 0⟩,
  ⟨true, 11, 1, 18, F, 0⟩, ⟨true, 12, 1, 10, F, 0⟩, ⟨true, 13, 1, 2, F, 0⟩, ⟨true, 14, 1, 0, F, 6⟩,
  ⟨false, 14, 2, 51, F, 0⟩, ⟨true, 15, 2, 43, F, 0⟩, ⟨true, 16, 2, 35, F, 0⟩, ⟨true, 17, 2, 27, F, 0⟩,
  ⟨true, 18, 2, 19, F, 0⟩, ⟨true, 19, 2, 11, F, 0⟩, ⟨true, 20, 2, 3, F, 0⟩, ⟨true, 21, 2, 0, F, 5⟩,
  ⟨false, 21, 3, 52, F, 0⟩, ⟨true, 22, 3, 44, F, 0⟩, ⟨true, 23, 3, 36, F, 0⟩, ⟨true, 24, 3, 28, F, 0⟩,
  ⟨true, 25, 3, 20, F, 0⟩, ⟨true, 26, 3, 12, F, 0⟩, ⟨true, 27, 3, 4, F, 0⟩, ⟨true, 28, 3, 0, F, 4⟩,
  ⟨false, 28, 4, 53, F, 0⟩, ⟨true, 29, 4, 45, F, 0⟩, ⟨true, 30, 4, 37, F, 0⟩, ⟨true, 31, 4, 29, F, 0⟩,
  ⟨true, 32, 4, 21, F, 0⟩, ⟨true, 33, 4, 13, F, 0⟩, ⟨true, 34, 4, 5, F, 0⟩, ⟨true, 35, 4, 0, F, 3⟩,
  ⟨false, 35, 5, 54, F, 0⟩, ⟨true, 36, 5, 46, F, 0⟩, ⟨true, 37, 5, 38, F, 0⟩, ⟨true, 38, 5, 30, F, 0⟩,
  ⟨true, 39, 5, 22, F, 0⟩, ⟨true, 40, 5, 14, F, 0⟩, ⟨true, 41, 5, 6, F, 0⟩, ⟨true, 42, 5, 0, F, 2⟩,
  ⟨false, 42, 6, 55, F, 0⟩, ⟨true, 43, 6, 47, F, 0⟩, ⟨true, 44, 6, 39, F, 0⟩, ⟨true, 45, 6, 31, F, 0⟩,
  ⟨true, 46, 6, 23, F, 0⟩, ⟨true, 47, 6, 15, F, 0⟩, ⟨true, 48, 6, 7, F, 0⟩, ⟨true, 49, 6, 0, F, 1⟩,
  ⟨false, 49, 7, 56, F, 0⟩, ⟨true, 50, 7, 48, F, 0⟩, ⟨true, 51, 7, 40, F, 0⟩, ⟨true, 52, 7, 32, F, 0⟩,
  ⟨true, 53, 7, 24, F, 0⟩, ⟨true, 54, 7, 16, F, 0⟩, ⟨true, 55, 7, 8, F, 0⟩, ⟨true, 56, 7, 0, F, 0⟩]

/-- `packBits58` bit_packing.go l.2775-2847 -/
def pack58 : List Stmt := [
  ⟨true, 0, 0, 50, F, 0⟩, ⟨true, 1, 0, 42, F, 0⟩, ⟨true, 2, 0, 34, F, 0⟩, ⟨true, 3, 0, 26, F, 0⟩,
  ⟨true, 4, 0, 18, F, 0⟩, ⟨true, 5, 0, 10, F, 0⟩, ⟨true, 6, 0, 2, F, 0⟩, ⟨true, 7, 0, 0, F, 6⟩,
  ⟨false, 7, 1, 52, F, 0⟩, ⟨true, 8, 1, 44, F, 0⟩, ⟨true, 9, 1, 36, F, 0⟩, ⟨true, 10, 1, 28, F, 0⟩,
  ⟨true, 11, 1, 20, F, 0⟩, ⟨true, 12, 1, 12, F, 0⟩, ⟨true, 13, 1, 4, F, 0⟩, ⟨true, 14, 1, 0, F, 4⟩,
  ⟨false, 14, 2, 54, F, 0⟩, ⟨true, 15, 2, 46, F, 0⟩, ⟨true, 16, 2, 38, F, 0⟩, ⟨true, 17, 2, 30, F, 0⟩,
  ⟨true, 18, 2, 22, F, 0⟩, ⟨true, 19, 2, 14, F, 0⟩, ⟨true, 20, 2, 6, F, 0⟩, ⟨true, 21, 2, 0, F, 2⟩,
  ⟨false, 21, 3, 56, F, 0⟩, ⟨true, 22, 3, 48, F, 0⟩, ⟨true, 23, 3, 40, F, 0⟩, ⟨true, 24, 3, 32, F, 0⟩,
  ⟨true, 25, 3, 24, F, 0⟩, ⟨true, 26, 3, 16, F, 0⟩, ⟨true, 27, 3, 8, F, 0⟩, ⟨true, 28, 3, 0, F, 0⟩,
  ⟨true, 29, 4, 50, F, 0⟩, ⟨true, 30, 4, 42, F, 0⟩, ⟨true, 31, 4, 34, F, 0⟩, ⟨true, 32, 4, 26, F, 0⟩,
  ⟨true, 33, 4, 18, F, 0⟩, ⟨true, 34, 4, 10, F, 0⟩, ⟨true, 35, 4, 2, F, 0⟩, ⟨true, 36, 4, 0, F, 6⟩,
  ⟨false, 36, 5, 52, F, 0⟩, ⟨true, 37, 5, 44, F, 0⟩, ⟨true, 38, 5, 36, F, 0⟩, ⟨true, 39, 5, 28, F, 0⟩,
  ⟨true, 40, 5, 20, F, 0⟩, ⟨true, 41, 5, 12, F, 0⟩, ⟨true, 42, 5, 4, F, 0⟩, ⟨true, 43, 5, 0, F, 4⟩,
  ⟨false, 43, 6, 54, F, 0⟩, ⟨true, 44, 6, 46, F, 0⟩, ⟨true, 45, 6, 38, F, 0⟩, ⟨true, 46, 6, 30, F, 0⟩,
  ⟨true, 47, 6, 22, F, 0⟩, ⟨true, 48, 6, 14, F, 0⟩, ⟨true, 49, 6, 6, F, 0⟩, ⟨true, 50, 6, 0, F, 2⟩,
  ⟨false, 50, 7, 56, F, 0⟩, ⟨true, 51, 7, 48, F, 0⟩, ⟨true, 52, 7, 40, F, 0⟩, ⟨true, 53, 7, 32, F, 0⟩,
  ⟨true, 54, 7, 24, F, 0⟩, ⟨true, 55, 7, 16, F, 0⟩, ⟨true, 56, 7, 8, F, 0⟩, ⟨true, 57, 7, 0, F, 0⟩]

/-- `packBits59` bit_packing.go l.2849-2923 -/
def pack59 : List Stmt := [
  ⟨true, 0, 0, 51, F, 0⟩, ⟨true, 1, 0, 43, F, 0⟩, ⟨true, 2, 0, 35, F, 0⟩, ⟨true, 3, 0, 27, F, 0⟩,
  ⟨true, 4, 0, 19, F, 0⟩, ⟨true, 5, 0, 11, F, 0⟩, ⟨true, 6, 0, 3, F, 0⟩, ⟨true, 7, 0, 0, F, 5⟩,
  ⟨false, 7, 1, 54, F, 0⟩, ⟨true, 8, 1, 46, F, 0⟩, ⟨true, 9, 1, 38, F, 0⟩, ⟨true, 10, 1, 30, F, 0⟩,
  ⟨true, 11, 1, 22, F, 0⟩, ⟨true, 12, 1, 14, F, 0⟩, ⟨true, 13, 1, 6, F, 0⟩, ⟨true, 14, 1, 0, F, 2⟩,
  ⟨false, 14, 2, 57, F, 0⟩, ⟨true, 15, 2, 49, F, 0⟩, ⟨true, 16, 2, 41, F, 0⟩, ⟨true, 17, 2, 33, F, 0⟩,
  ⟨true, 18, 2, 25, F, 0⟩, ⟨true, 19, 2, 17, F, 0⟩, ⟨true, 20, 2, 9, F, 0⟩, ⟨true, 21, 2, 1, F, 0⟩,
  ⟨true, 22, 2, 0, F, 7⟩, ⟨false, 22, 3, 52, F, 0⟩, ⟨true, 23, 3, 44, F, 0⟩, ⟨true, 24, 3, 36, F, 0⟩,
  ⟨true, 25, 3, 28, F, 0⟩, ⟨true, 26, 3, 20, F, 0⟩, ⟨true, 27, 3, 12, F, 0⟩, ⟨true, 28, 3, 4, F, 0⟩,
  ⟨true, 29, 3, 0, F, 4⟩, ⟨false, 29, 4, 55, F, 0⟩, ⟨true, 30, 4, 47, F, 0⟩, ⟨true, 31, 4, 39, F, 0⟩,
  ⟨true, 32, 4, 31, F, 0⟩, ⟨true, 33, 4, 23, F, 0⟩, ⟨true, 34, 4, 15, F, 0⟩, ⟨true, 35, 4, 7, F, 0⟩,
  ⟨true, 36, 4, 0, F, 1⟩, ⟨false, 36, 5, 58, F, 0⟩, ⟨true, 37, 5, 50, F, 0⟩, ⟨true, 38, 5, 42, F, 0⟩,
  ⟨true, 39, 5, 34, F, 0⟩, ⟨true, 40, 5, 26, F, 0⟩, ⟨true, 41, 5, 18, F, 0⟩, ⟨true, 42, 5, 10, F, 0⟩,
  ⟨true, 43, 5, 2, F, 0⟩, ⟨true, 44, 5, 0, F, 6⟩, ⟨false, 44, 6, 53, F, 0⟩, ⟨true, 45, 6, 45, F, 0⟩,
  ⟨true, 46, 6, 37, F, 0⟩, ⟨true, 47, 6, 29, F, 0⟩, ⟨true, 48, 6, 21, F, 0⟩, ⟨true, 49, 6, 13, F, 0⟩,
  ⟨true, 50, 6, 5, F, 0⟩, ⟨true, 51, 6, 0, F, 3⟩, ⟨false, 51, 7, 56, F, 0⟩, ⟨true, 52, 7, 48, F, 0⟩,
  ⟨true, 53, 7, 40, F, 0⟩, ⟨true, 54, 7, 32, F, 0⟩, ⟨true, 55, 7, 24, F, 0⟩, ⟨true, 56, 7, 16, F, 0⟩,
  ⟨true, 57, 7, 8, F, 0⟩, ⟨true, 58, 7, 0, F, 0⟩]

/-- `packBits60` bit_packing.go l.2925-2997 -/
def pack60 : List Stmt := [
  ⟨true, 0, 0, 52, F, 0⟩, ⟨true, 1, 0, 44, F, 0⟩, ⟨true, 2, 0, 36, F, 0⟩, ⟨true, 3, 0, 28, F, 0⟩,
  ⟨true, 4, 0, 20, F, 0⟩, ⟨true, 5, 0, 12, F, 0⟩, ⟨true, 6, 0, 4, F, 0⟩, ⟨true, 7, 0, 0, F, 4⟩,
  ⟨false, 7, 1, 56, F, 0⟩, ⟨true, 8, 1, 48, F, 0⟩, ⟨true, 9, 1, 40, F, 0⟩, ⟨true, 10, 1, 32, F, 0⟩,
  ⟨true, 11, 1, 24, F, 0⟩, ⟨true, 12, 1, 16, F, 0⟩, ⟨true, 13, 1, 8, F, 0⟩, ⟨true, 14, 1, 0, F, 0⟩,
  ⟨true, 15, 2, 52, F, 0⟩, ⟨true, 16, 2, 44, F, 0⟩, ⟨true, 17, 2, 36, F, 0⟩, ⟨true, 18, 2, 28, F, 0⟩,
  ⟨true, 19, 2, 20, F, 0⟩, ⟨true, 20, 2, 12, F, 0⟩, ⟨true, 21, 2, 4, F, 0⟩, ⟨true, 22, 2, 0, F, 4⟩,
  ⟨false, 22, 3, 56, F, 0⟩, ⟨true, 23, 3, 48, F, 0⟩, ⟨true, 24, 3, 40, F, 0⟩, ⟨true, 25, 3, 32, F, 0⟩,
  ⟨true, 26, 3, 24, F, 0⟩, ⟨true, 27, 3, 16, F, 0⟩, ⟨true, 28, 3, 8, F, 0⟩, ⟨true, 29, 3, 0, F, 0⟩,
  ⟨true, 30, 4, 52, F, 0⟩, ⟨true, 31, 4, 44, F, 0⟩, ⟨true, 32, 4, 36, F, 0⟩, ⟨true, 33, 4, 28, F, 0⟩,
  ⟨true, 34, 4, 20, F, 0⟩, ⟨true, 35, 4, 12, F, 0⟩, ⟨true, 36, 4, 4, F, 0⟩, ⟨true, 37, 4, 0, F, 4⟩,
  ⟨false, 37, 5, 56, F, 0⟩, ⟨true, 38, 5, 48, F, 0⟩, ⟨true, 39, 5, 40, F, 0⟩, ⟨true, 40, 5, 32, F, 0⟩,
  ⟨true, 41, 5, 24, F, 0⟩, ⟨true, 42, 5, 16, F, 0⟩, ⟨true, 43, 5, 8, F, 0⟩, ⟨true, 44, 5, 0, F, 0⟩,
  ⟨true, 45, 6, 52, F, 0⟩, ⟨true, 46, 6, 44, F, 0⟩, ⟨true, 47, 6, 36, F, 0⟩, ⟨true, 48, 6, 28, F, 0⟩,
  ⟨true, 49, 6, 20, F, 0⟩, ⟨true, 50, 6, 12, F, 0⟩, ⟨true, 51, 6, 4, F, 0⟩, ⟨true, 52, 6, 0, F, 4⟩,
  ⟨false, 52, 7, 56, F, 0⟩, ⟨true, 53, 7, 48, F, 0⟩, ⟨true, 54, 7, 40, F, 0⟩, ⟨true, 55, 7, 32, F, 0⟩,
  ⟨true, 56, 7, 24, F, 0⟩, ⟨true, 57, 7, 16, F, 0⟩, ⟨true, 58, 7, 8, F, 0⟩, ⟨true, 59, 7, 0, F, 0⟩]

/-- `packBits61` bit_packing.go l.2999-3075 -/
def pack61 : List Stmt := [
  ⟨true, 0, 0, 53, F, 0⟩, ⟨true, 1, 0, 45, F, 0⟩, ⟨true, 2, 0, 37, F, 0⟩, ⟨true, 3, 0, 29, F, 0⟩,
  ⟨true, 4, 0, 21, F, 0⟩, ⟨true, 5, 0, 13, F, 0⟩, ⟨true, 6, 0, 5, F, 0⟩, ⟨true, 7, 0, 0, F, 3⟩,
  ⟨false, 7, 1, 58, F, 0⟩, ⟨true, 8, 1, 50, F, 0⟩, ⟨true, 9, 1, 42, F, 0⟩, ⟨true, 10, 1, 34, F, 0⟩,
  ⟨true, 11, 1, 26, F, 0⟩, ⟨true, 12, 1, 18, F, 0⟩, ⟨true, 13, 1, 10, F, 0⟩, ⟨true, 14, 1, 2, F, 0⟩,
  ⟨true, 15, 1, 0, F, 6⟩, ⟨false, 15, 2, 55, F, 0⟩, ⟨true, 16, 2, 47, F, 0⟩, ⟨true, 17, 2, 39, F, 0⟩,
  ⟨true, 18, 2, 31, F, 0⟩, ⟨true, 19, 2, 23, F, 0⟩, ⟨true, 20, 2, 15, F, 0⟩, ⟨true, 21, 2, 7, F, 0⟩,
  ⟨true, 22, 2, 0, F, 1⟩, ⟨false, 22, 3, 60, F, 0⟩, ⟨true, 23, 3, 52, F, 0⟩, ⟨true, 24, 3, 44, F, 0⟩,
  ⟨true, 25, 3, 36, F, 0⟩, ⟨true, 26, 3, 28, F, 0⟩, ⟨true, 27, 3, 20, F, 0⟩, ⟨true, 28, 3, 12, F, 0⟩,
  ⟨true, 29, 3, 4, F, 0⟩, ⟨true, 30, 3, 0, F, 4⟩, ⟨false, 30, 4, 57, F, 0⟩, ⟨true, 31, 4, 49, F, 0⟩,
  ⟨true, 32, 4, 41, F, 0⟩, ⟨true, 33, 4, 33, F, 0⟩, ⟨true, 34, 4, 25, F, 0⟩, ⟨true, 35, 4, 17, F, 0⟩,
  ⟨true, 36, 4, 9, F, 0⟩, ⟨true, 37, 4, 1, F, 0⟩, ⟨true, 38, 4, 0, F, 7⟩, ⟨false, 38, 5, 54, F, 0⟩,
  ⟨true, 39, 5, 46, F, 0⟩, ⟨true, 40, 5, 38, F, 0⟩, ⟨true, 41, 5, 30, F, 0⟩, ⟨true, 42, 5, 22, F, 0⟩,
  ⟨true, 43, 5, 14, F, 0⟩, ⟨true, 44, 5, 6, F, 0⟩, ⟨true, 45, 5, 0, F, 2⟩, ⟨false, 45, 6, 59, F, 0⟩,
  ⟨true, 46, 6, 51, F, 0⟩, ⟨true, 47, 6, 43, F, 0⟩, ⟨true, 48, 6, 35, F, 0⟩, ⟨true, 49, 6, 27, F, 0⟩,
  ⟨true, 50, 6, 19, F, 0⟩, ⟨true, 51, 6, 11, F, 0⟩, ⟨true, 52, 6, 3, F, 0⟩, ⟨true, 53, 6, 0, F, 5⟩,
  ⟨false, 53, 7, 56, F, 0⟩, ⟨true, 54, 7, 48, F, 0⟩, ⟨true, 55, 7, 40, F, 0⟩, ⟨true, 56, 7, 32, F, 0⟩,
  ⟨true, 57, 7, 24, F, 0⟩, ⟨true, 58, 7, 16, F, 0⟩, ⟨true, 59, 7, 8, F, 0⟩, ⟨true, 60, 7, 0, F, 0⟩]

/-- `packBits62` bit_packing.go l.3077-3153 -/
def pack62 : List Stmt := [
  ⟨true, 0, 0, 54, F, 0⟩, ⟨true, 1, 0, 46, F, 0⟩, ⟨true, 2, 0, 38, F, 0⟩, ⟨true, 3, 0, 30, F, 0⟩,
  ⟨true, 4, 0, 22, F, 0⟩, ⟨true, 5, 0, 14, F, 0⟩, ⟨true, 6, 0, 6, F, 0⟩, ⟨true, 7, 0, 0, F, 2⟩,
  ⟨false, 7, 1, 60, F, 0⟩, ⟨true, 8, 1, 52, F, 0⟩, ⟨true, 9, 1, 44, F, 0⟩, ⟨true, 10, 1, 36, F, 0⟩,
  ⟨true, 11, 1, 28, F, 0⟩, ⟨true, 12, 1, 20, F, 0⟩, ⟨true, 13, 1, 12, F, 0⟩, ⟨true, 14, 1, 4, F, 0⟩,
  ⟨true, 15, 1, 0, F, 4⟩, ⟨false, 15, 2, 58, F, 0⟩, ⟨true, 16, 2, 50, F, 0⟩, ⟨true, 17, 2, 42, F, 0⟩,
  ⟨true, 18, 2, 34, F, 0⟩, ⟨true, 19, 2, 26, F, 0⟩, ⟨true, 20, 2, 18, F, 0⟩, ⟨true, 21, 2, 10, F, 0⟩,
  ⟨true, 22, 2, 2, F, 0⟩, ⟨true, 23, 2, 0, F, 6⟩, ⟨false, 23, 3, 56, F, 0⟩, ⟨true, 24, 3, 48, F, 0⟩,
  ⟨true, 25, 3, 40, F, 0⟩, ⟨true, 26, 3, 32, F, 0⟩, ⟨true, 27, 3, 24, F, 0⟩, ⟨true, 28, 3, 16, F, 0⟩,
  ⟨true, 29, 3, 8, F, 0⟩, ⟨true, 30, 3, 0, F, 0⟩, ⟨true, 31, 4, 54, F, 0⟩, ⟨true, 32, 4, 46, F, 0⟩,
  ⟨true, 33, 4, 38, F, 0⟩, ⟨true, 34, 4, 30, F, 0⟩, ⟨true, 35, 4, 22, F, 0⟩, ⟨true, 36, 4, 14, F, 0⟩,
  ⟨true, 37, 4, 6, F, 0⟩, ⟨true, 38, 4, 0, F, 2⟩, ⟨false, 38, 5, 60, F, 0⟩, ⟨true, 39, 5, 52, F, 0⟩,
  ⟨true, 40, 5, 44, F, 0⟩, ⟨true, 41, 5, 36, F, 0⟩, ⟨true, 42, 5, 28, F, 0⟩, ⟨true, 43, 5, 20, F, 0⟩,
  ⟨true, 44, 5, 12, F, 0⟩, ⟨true, 45, 5, 4, F, 0⟩, ⟨true, 46, 5, 0, F, 4⟩, ⟨false, 46, 6, 58, F, 0⟩,
  ⟨true, 47, 6, 50, F, 0⟩, ⟨true, 48, 6, 42, F, 0⟩, ⟨true, 49, 6, 34, F, 0⟩, ⟨true, 50, 6, 26, F, 0⟩,
  ⟨true, 51, 6, 18, F, 0⟩, ⟨true, 52, 6, 10, F, 0⟩, ⟨true, 53, 6, 2, F, 0⟩, ⟨true, 54, 6, 0, F, 6⟩,
  ⟨false, 54, 7, 56, F, 0⟩, ⟨true, 55, 7, 48, F, 0⟩, ⟨true, 56, 7, 40, F, 0⟩, ⟨true, 57, 7, 32, F, 0⟩,
  ⟨true, 58, 7, 24, F, 0⟩, ⟨true, 59, 7, 16, F, 0⟩, ⟨true, 60, 7, 8, F, 0⟩, ⟨true, 61, 7, 0, F, 0⟩]

/-- `packBits63` bit_packing.go l.3155-3233 -/
def pack63 : List Stmt := [
  ⟨true, 0, 0, 55, F, 0⟩, ⟨true, 1, 0, 47, F, 0⟩, ⟨true, 2, 0, 39, F, 0⟩, ⟨true, 3, 0, 31, F, 0⟩,
  ⟨true, 4, 0, 23, F, 0⟩, ⟨true, 5, 0, 15, F, 0⟩, ⟨true, 6, 0, 7, F, 0⟩, ⟨true, 7, 0, 0, F, 1⟩,
  ⟨false, 7, 1, 62, F, 0⟩, ⟨true, 8, 1, 54, F, 0⟩, ⟨true, 9, 1, 46, F, 0⟩, ⟨true, 10, 1, 38, F, 0⟩,
  ⟨true, 11, 1, 30, F, 0⟩, ⟨true, 12, 1, 22, F, 0⟩, ⟨true, 13, 1, 14, F, 0⟩, ⟨true, 14, 1, 6, F, 0⟩,
  ⟨true, 15, 1, 0, F, 2⟩, ⟨false, 15, 2, 61, F, 0⟩, ⟨true, 16, 2, 53, F, 0⟩, ⟨true, 17, 2, 45, F, 0⟩,
  ⟨true, 18, 2, 37, F, 0⟩, ⟨true, 19, 2, 29, F, 0⟩, ⟨true, 20, 2, 21, F, 0⟩, ⟨true, 21, 2, 13, F, 0⟩,
  ⟨true, 22, 2, 5, F, 0⟩, ⟨true, 23, 2, 0, F, 3⟩, ⟨false, 23, 3, 60, F, 0⟩, ⟨true, 24, 3, 52, F, 0⟩,
  ⟨true, 25, 3, 44, F, 0⟩, ⟨true, 26, 3, 36, F, 0⟩, ⟨true, 27, 3, 28, F, 0⟩, ⟨true, 28, 3, 20, F, 0⟩,
  ⟨true, 29, 3, 12, F, 0⟩, ⟨true, 30, 3, 4, F, 0⟩, ⟨true, 31, 3, 0, F, 4⟩, ⟨false, 31, 4, 59, F, 0⟩,
  ⟨true, 32, 4, 51, F, 0⟩, ⟨true, 33, 4, 43, F, 0⟩, ⟨true, 34, 4, 35, F, 0⟩, ⟨true, 35, 4, 27, F, 0⟩,
  ⟨true, 36, 4, 19, F, 0⟩, ⟨true, 37, 4, 11, F, 0⟩, ⟨true, 38, 4, 3, F, 0⟩, ⟨true, 39, 4, 0, F, 5⟩,
  ⟨false, 39, 5, 58, F, 0⟩, ⟨true, 40, 5, 50, F, 0⟩, ⟨true, 41, 5, 42, F, 0⟩, ⟨true, 42, 5, 34, F, 0⟩,
  ⟨true, 43, 5, 26, F, 0⟩, ⟨true, 44, 5, 18, F, 0⟩, ⟨true, 45, 5, 10, F, 0⟩, ⟨true, 46, 5, 2, F, 0⟩,
  ⟨true, 47, 5, 0, F, 6⟩, ⟨false, 47, 6, 57, F, 0⟩, ⟨true, 48, 6, 49, F, 0⟩, ⟨true, 49, 6, 41, F, 0⟩,
  ⟨true, 50, 6, 33, F, 0⟩, ⟨true, 51, 6, 25, F, 0⟩, ⟨true, 52, 6, 17, F, 0⟩, ⟨true, 53, 6, 9, F, 0⟩,
  ⟨true, 54, 6, 1, F, 0⟩, ⟨true, 55, 6, 0, F, 7⟩, ⟨false, 55, 7, 56, F, 0⟩, ⟨true, 56, 7, 48, F, 0⟩,
  ⟨true, 57, 7, 40, F, 0⟩, ⟨true, 58, 7, 32, F, 0⟩, ⟨true, 59, 7, 24, F, 0⟩, ⟨true, 60, 7, 16, F, 0⟩,
  ⟨true, 61, 7, 8, F, 0⟩, ⟨true, 62, 7, 0, F, 0⟩]

/-- `unpackBits1` bit_packing.go l.3373-3382 -/
def unpack1 : List Stmt := [
  ⟨true, 0, 0, 7, 255, 0⟩, ⟨true, 1, 0, 6, 1, 0⟩, ⟨true, 2, 0, 5, 1, 0⟩, ⟨true, 3, 0, 4, 1, 0⟩,
  ⟨true, 4, 0, 3, 1, 0⟩, ⟨true, 5, 0, 2, 1, 0⟩, ⟨true, 6, 0, 1, 1, 0⟩, ⟨true, 7, 0, 0, 1, 0⟩]

/-- `unpackBits2` bit_packing.go l.3384-3393 -/
def unpack2 : List Stmt := [
  ⟨true, 0, 0, 6, 255, 0⟩, ⟨true, 1, 0, 4, 3, 0⟩, ⟨true, 2, 0, 2, 3, 0⟩, ⟨true, 3, 0, 0, 3, 0⟩,
  ⟨true, 4, 1, 6, 255, 0⟩, ⟨true, 5, 1, 4, 3, 0⟩, ⟨true, 6, 1, 2, 3, 0⟩, ⟨true, 7, 1, 0, 3, 0⟩]

/-- `unpackBits3` bit_packing.go l.3395-3406 -/
def unpack3 : List Stmt := [
  ⟨true, 0, 0, 5, 255, 0⟩, ⟨true, 1, 0, 2, 7, 0⟩, ⟨true, 2, 0, 0, 3, 1⟩, ⟨false, 2, 1, 7, 255, 0⟩,
  ⟨true, 3, 1, 4, 7, 0⟩, ⟨true, 4, 1, 1, 7, 0⟩, ⟨true, 5, 1, 0, 1, 2⟩, ⟨false, 5, 2, 6, 255, 0⟩,
  ⟨true, 6, 2, 3, 7, 0⟩, ⟨true, 7, 2, 0, 7, 0⟩]

/-- `unpackBits4` bit_packing.go l.3408-3417 -/
def unpack4 : List Stmt := [
  ⟨true, 0, 0, 4, 255, 0⟩, ⟨true, 1, 0, 0, 15, 0⟩, ⟨true, 2, 1, 4, 255, 0⟩, ⟨true, 3, 1, 0, 15, 0⟩,
  ⟨true, 4, 2, 4, 255, 0⟩, ⟨true, 5, 2, 0, 15, 0⟩, ⟨true, 6, 3, 4, 255, 0⟩, ⟨true, 7, 3, 0, 15, 0⟩]

/-- `unpackBits5` bit_packing.go l.3419-3439 -/
def unpack5 : List Stmt := [
  ⟨true, 0, 0, 3, 255, 0⟩, ⟨true, 1, 0, 0, 7, 2⟩, ⟨false, 1, 1, 6, 255, 0⟩, ⟨true, 2, 1, 1, 31, 0⟩,
  ⟨true, 3, 1, 0, 1, 4⟩, ⟨false, 3, 2, 4, 255, 0⟩, ⟨true, 4, 2, 0, 15, 1⟩, ⟨false, 4, 3, 7, 255, 0⟩,
  ⟨true, 5, 3, 2, 31, 0⟩, ⟨true, 6, 3, 0, 3, 3⟩, ⟨false, 6, 4, 5, 255, 0⟩, ⟨true, 7, 4, 0, 31, 0⟩]

/-- `unpackBits6` bit_packing.go l.3441-3461 -/
def unpack6 : List Stmt := [
  ⟨true, 0, 0, 2, 255, 0⟩, ⟨true, 1, 0, 0, 3, 4⟩, ⟨false, 1, 1, 4, 255, 0⟩, ⟨true, 2, 1, 0, 15, 2⟩,
  ⟨false, 2, 2, 6, 255, 0⟩, ⟨true, 3, 2, 0, 63, 0⟩, ⟨true, 4, 3, 2, 255, 0⟩, ⟨true, 5, 3, 0, 3, 4⟩,
  ⟨false, 5, 4, 4, 255, 0⟩, ⟨true, 6, 4, 0, 15, 2⟩, ⟨false, 6, 5, 6, 255, 0⟩, ⟨true, 7, 5, 0, 63, 0⟩]

/-- `unpackBits7` bit_packing.go l.3463-3485 -/
def unpack7 : List Stmt := [
  ⟨true, 0, 0, 1, 255, 0⟩, ⟨true, 1, 0, 0, 1, 6⟩, ⟨false, 1, 1, 2, 255, 0⟩, ⟨true, 2, 1, 0, 3, 5⟩,
  ⟨false, 2, 2, 3, 255, 0⟩, ⟨true, 3, 2, 0, 7, 4⟩, ⟨false, 3, 3, 4, 255, 0⟩, ⟨true, 4, 3, 0, 15, 3⟩,
  ⟨false, 4, 4, 5, 255, 0⟩, ⟨true, 5, 4, 0, 31, 2⟩, ⟨false, 5, 5, 6, 255, 0⟩, ⟨true, 6, 5, 0, 63, 1⟩,
  ⟨false, 6, 6, 7, 255, 0⟩, ⟨true, 7, 6, 0, 127, 0⟩]

/-- `unpackBits8` bit_packing.go l.3487-3496 -/
def unpack8 : List Stmt := [
  ⟨true, 0, 0, 0, 255, 0⟩, ⟨true, 1, 1, 0, 255, 0⟩, ⟨true, 2, 2, 0, 255, 0⟩, ⟨true, 3, 3, 0, 255, 0⟩,
  ⟨true, 4, 4, 0, 255, 0⟩, ⟨true, 5, 5, 0, 255, 0⟩, ⟨true, 6, 6, 0, 255, 0⟩, ⟨true, 7, 7, 0, 255, 0⟩]

/-- `unpackBits9` bit_packing.go l.3498-3522 -/
def unpack9 : List Stmt := [
  ⟨true, 0, 0, 0, 255, 1⟩, ⟨false, 0, 1, 7, 255, 0⟩, ⟨true, 1, 1, 0, 127, 2⟩, ⟨false, 1, 2, 6, 255, 0⟩,
  ⟨true, 2, 2, 0, 63, 3⟩, ⟨false, 2, 3, 5, 255, 0⟩, ⟨true, 3, 3, 0, 31, 4⟩, ⟨false, 3, 4, 4, 255, 0⟩,
  ⟨true, 4, 4, 0, 15, 5⟩, ⟨false, 4, 5, 3, 255, 0⟩, ⟨true, 5, 5, 0, 7, 6⟩, ⟨false, 5, 6, 2, 255, 0⟩,
  ⟨true, 6, 6, 0, 3, 7⟩, ⟨false, 6, 7, 1, 255, 0⟩, ⟨true, 7, 7, 0, 1, 8⟩, ⟨false, 7, 8, 0, 255, 0⟩]

/-- `unpackBits10` bit_packing.go l.3524-3548 -/
def unpack10 : List Stmt := [
  ⟨true, 0, 0, 0, 255, 2⟩, ⟨false, 0, 1, 6, 255, 0⟩, ⟨true, 1, 1, 0, 63, 4⟩, ⟨false, 1, 2, 4, 255, 0⟩,
  ⟨true, 2, 2, 0, 15, 6⟩, ⟨false, 2, 3, 2, 255, 0⟩, ⟨true, 3, 3, 0, 3, 8⟩, ⟨false, 3, 4, 0, 255, 0⟩,
  ⟨true, 4, 5, 0, 255, 2⟩, ⟨false, 4, 6, 6, 255, 0⟩, ⟨true, 5, 6, 0, 63, 4⟩, ⟨false, 5, 7, 4, 255, 0⟩,
  ⟨true, 6, 7, 0, 15, 6⟩, ⟨false, 6, 8, 2, 255, 0⟩, ⟨true, 7, 8, 0, 3, 8⟩, ⟨false, 7, 9, 0, 255, 0⟩]

/-- `unpackBits11` bit_packing.go l.3550-3576 -/
def unpack11 : List Stmt := [
  ⟨true, 0, 0, 0, 255, 3⟩, ⟨false, 0, 1, 5, 255, 0⟩, ⟨true, 1, 1, 0, 31, 6⟩, ⟨false, 1, 2, 2, 255, 0⟩,
  ⟨true, 2, 2, 0, 3, 9⟩, ⟨false, 2, 3, 0, 255, 1⟩, ⟨false, 2, 4, 7, 255, 0⟩, ⟨true, 3, 4, 0, 127, 4⟩,
  ⟨false, 3, 5, 4, 255, 0⟩, ⟨true, 4, 5, 0, 15, 7⟩, ⟨false, 4, 6, 1, 255, 0⟩, ⟨true, 5, 6, 0, 1, 10⟩,
  ⟨false, 5, 7, 0, 255, 2⟩, ⟨false, 5, 8, 6, 255, 0⟩, ⟨true, 6, 8, 0, 63, 5⟩, ⟨false, 6, 9, 3, 255, 0⟩,
  ⟨true, 7, 9, 0, 7, 8⟩, ⟨false, 7, 10, 0, 255, 0⟩]

/-- `unpackBits12` bit_packing.go l.3578-3602 -/
def unpack12 : List Stmt := [
  ⟨true, 0, 0, 0, 255, 4⟩, ⟨false, 0, 1, 4, 255, 0⟩, ⟨true, 1, 1, 0, 15, 8⟩, ⟨false, 1, 2, 0, 255, 0⟩,
  ⟨true, 2, 3, 0, 255, 4⟩, ⟨false, 2, 4, 4, 255, 0⟩, ⟨true, 3, 4, 0, 15, 8⟩, ⟨false, 3, 5, 0, 255, 0⟩,
  ⟨true, 4, 6, 0, 255, 4⟩, ⟨false, 4, 7, 4, 255, 0⟩, ⟨true, 5, 7, 0, 15, 8⟩, ⟨false, 5, 8, 0, 255, 0⟩,
  ⟨true, 6, 9, 0, 255, 4⟩, ⟨false, 6, 10, 4, 255, 0⟩, ⟨true, 7, 10, 0, 15, 8⟩, ⟨false, 7, 11, 0, 255, 0⟩]

/-- `unpackBits13` bit_packing.go l.3604-3632 -/
def unpack13 : List Stmt := [
  ⟨true, 0, 0, 0, 255, 5⟩, ⟨false, 0, 1, 3, 255, 0⟩, ⟨true, 1, 1, 0, 7, 10⟩, ⟨false, 1, 2, 0, 255, 2⟩,
  ⟨false, 1, 3, 6, 255, 0⟩, ⟨true, 2, 3, 0, 63, 7⟩, ⟨false, 2, 4, 1, 255, 0⟩, ⟨true, 3, 4, 0, 1, 12⟩,
  ⟨false, 3, 5, 0, 255, 4⟩, ⟨false, 3, 6, 4, 255, 0⟩, ⟨true, 4, 6, 0, 15, 9⟩, ⟨false, 4, 7, 0, 255, 1⟩,
  ⟨false, 4, 8, 7, 255, 0⟩, ⟨true, 5, 8, 0, 127, 6⟩, ⟨false, 5, 9, 2, 255, 0⟩, ⟨true, 6, 9, 0, 3, 11⟩,
  ⟨false, 6, 10, 0, 255, 3⟩, ⟨false, 6, 11, 5, 255, 0⟩, ⟨true, 7, 11, 0, 31, 8⟩, ⟨false, 7, 12, 0, 255, 0⟩]

/-- `unpackBits14` bit_packing.go l.3634-3662 -/
def unpack14 : List Stmt := [
  ⟨true, 0, 0, 0, 255, 6⟩, ⟨false, 0, 1, 2, 255, 0⟩, ⟨true, 1, 1, 0, 3, 12⟩, ⟨false, 1, 2, 0, 255, 4⟩,
  ⟨false, 1, 3, 4, 255, 0⟩, ⟨true, 2, 3, 0, 15, 10⟩, ⟨false, 2, 4, 0, 255, 2⟩, ⟨false, 2, 5, 6, 255, 0⟩,
  ⟨true, 3, 5, 0, 63, 8⟩, ⟨false, 3, 6, 0, 255, 0⟩, ⟨true, 4, 7, 0, 255, 6⟩, ⟨false, 4, 8, 2, 255, 0⟩,
  ⟨true, 5, 8, 0, 3, 12⟩, ⟨false, 5, 9, 0, 255, 4⟩, ⟨false, 5, 10, 4, 255, 0⟩, ⟨true, 6, 10, 0, 15, 10⟩,
  ⟨false, 6, 11, 0, 255, 2⟩, ⟨false, 6, 12, 6, 255, 0⟩, ⟨true, 7, 12, 0, 63, 8⟩, ⟨false, 7, 13, 0, 255, 0⟩]

/-- `unpackBits15` bit_packing.go l.3664-3694 -/
def unpack15 : List Stmt := [
  ⟨true, 0, 0, 0, 255, 7⟩, ⟨false, 0, 1, 1, 255, 0⟩, ⟨true, 1, 1, 0, 1, 14⟩, ⟨false, 1, 2, 0, 255, 6⟩,
  ⟨false, 1, 3, 2, 255, 0⟩, ⟨true, 2, 3, 0, 3, 13⟩, ⟨false, 2, 4, 0, 255, 5⟩, ⟨false, 2, 5, 3, 255, 0⟩,
  ⟨true, 3, 5, 0, 7, 12⟩, ⟨false, 3, 6, 0, 255, 4⟩, ⟨false, 3, 7, 4, 255, 0⟩, ⟨true, 4, 7, 0, 15, 11⟩,
  ⟨false, 4, 8, 0, 255, 3⟩, ⟨false, 4, 9, 5, 255, 0⟩, ⟨true, 5, 9, 0, 31, 10⟩, ⟨false, 5, 10, 0, 255, 2⟩,
  ⟨false, 5, 11, 6, 255, 0⟩, ⟨true, 6, 11, 0, 63, 9⟩, ⟨false, 6, 12, 0, 255, 1⟩, ⟨false, 6, 13, 7, 255, 0⟩,
  ⟨true, 7, 13, 0, 127, 8⟩, ⟨false, 7, 14, 0, 255, 0⟩]

/-- `unpackBits16` bit_packing.go l.3696-3713 -/
def unpack16 : List Stmt := [
  ⟨true, 0, 0, 0, 255, 8⟩, ⟨false, 0, 1, 0, 255, 0⟩, ⟨true, 1, 2, 0, 255, 8⟩, ⟨false, 1, 3, 0, 255, 0⟩,
  ⟨true, 2, 4, 0, 255, 8⟩, ⟨false, 2, 5, 0, 255, 0⟩, ⟨true, 3, 6, 0, 255, 8⟩, ⟨false, 3, 7, 0, 255, 0⟩,
  ⟨true, 4, 8, 0, 255, 8⟩, ⟨false, 4, 9, 0, 255, 0⟩, ⟨true, 5, 10, 0, 255, 8⟩, ⟨false, 5, 11, 0, 255, 0⟩,
  ⟨true, 6, 12, 0, 255, 8⟩, ⟨false, 6, 13, 0, 255, 0⟩, ⟨true, 7, 14, 0, 255, 8⟩, ⟨false, 7, 15, 0, 255, 0⟩]

/-- `unpackBits17` bit_packing.go l.3715-3747 -/
def unpack17 : List Stmt := [
  ⟨true, 0, 0, 0, 255, 9⟩, ⟨false, 0, 1, 0, 255, 1⟩, ⟨false, 0, 2, 7, 255, 0⟩, ⟨true, 1, 2, 0, 127, 10⟩,
  ⟨false, 1, 3, 0, 255, 2⟩, ⟨false, 1, 4, 6, 255, 0⟩, ⟨true, 2, 4, 0, 63, 11⟩, ⟨false, 2, 5, 0, 255, 3⟩,
  ⟨false, 2, 6, 5, 255, 0⟩, ⟨true, 3, 6, 0, 31, 12⟩, ⟨false, 3, 7, 0, 255, 4⟩, ⟨false, 3, 8, 4, 255, 0⟩,
  ⟨true, 4, 8, 0, 15, 13⟩, ⟨false, 4, 9, 0, 255, 5⟩, ⟨false, 4, 10, 3, 255, 0⟩, ⟨true, 5, 10, 0, 7, 14⟩,
  ⟨false, 5, 11, 0, 255, 6⟩, ⟨false, 5, 12, 2, 255, 0⟩, ⟨true, 6, 12, 0, 3, 15⟩, ⟨false, 6, 13, 0, 255, 7⟩,
  ⟨false, 6, 14, 1, 255, 0⟩, ⟨true, 7, 14, 0, 1, 16⟩, ⟨false, 7, 15, 0, 255, 8⟩, ⟨false, 7, 16, 0, 255, 0⟩]

/-- `unpackBits18` bit_packing.go l.3749-3781 -/
def unpack18 : List Stmt := [
  ⟨true, 0, 0, 0, 255, 10⟩, ⟨false, 0, 1, 0, 255, 2⟩, ⟨false, 0, 2, 6, 255, 0⟩, ⟨true, 1, 2, 0, 63, 12⟩,
  ⟨false, 1, 3, 0, 255, 4⟩, ⟨false, 1, 4, 4, 255, 0⟩, ⟨true, 2, 4, 0, 15, 14⟩, ⟨false, 2, 5, 0, 255, 6⟩,
  ⟨false, 2, 6, 2, 255, 0⟩, ⟨true, 3, 6, 0, 3, 16⟩, ⟨false, 3, 7, 0, 255, 8⟩, ⟨false, 3, 8, 0, 255, 0⟩,
  ⟨true, 4, 9, 0, 255, 10⟩, ⟨false, 4, 10, 0, 255, 2⟩, ⟨false, 4, 11, 6, 255, 0⟩, ⟨true, 5, 11, 0, 63, 12⟩,
  ⟨false, 5, 12, 0, 255, 4⟩, ⟨false, 5, 13, 4, 255, 0⟩, ⟨true, 6, 13, 0, 15, 14⟩, ⟨false, 6, 14, 0, 255, 6⟩,
  ⟨false, 6, 15, 2, 255, 0⟩, ⟨true, 7, 15, 0, 3, 16⟩, ⟨false, 7, 16, 0, 255, 8⟩, ⟨false, 7, 17, 0, 255, 0⟩]

/-- `unpackBits19` bit_packing.go l.3783-3817 -/
def unpack19 : List Stmt := [
  ⟨true, 0, 0, 0, 255, 11⟩, ⟨false, 0, 1, 0, 255, 3⟩, ⟨false, 0, 2, 5, 255, 0⟩, ⟨true, 1, 2, 0, 31, 14⟩,
  ⟨false, 1, 3, 0, 255, 6⟩, ⟨false, 1, 4, 2, 255, 0⟩, ⟨true, 2, 4, 0, 3, 17⟩, ⟨false, 2, 5, 0, 255, 9⟩,
  ⟨false, 2, 6, 0, 255, 1⟩, ⟨false, 2, 7, 7, 255, 0⟩, ⟨true, 3, 7, 0, 127, 12⟩, ⟨false, 3, 8, 0, 255, 4⟩,
  ⟨false, 3, 9, 4, 255, 0⟩, ⟨true, 4, 9, 0, 15, 15⟩, ⟨false, 4, 10, 0, 255, 7⟩, ⟨false, 4, 11, 1, 255, 0⟩,
  ⟨true, 5, 11, 0, 1, 18⟩, ⟨false, 5, 12, 0, 255, 10⟩, ⟨false, 5, 13, 0, 255, 2⟩, ⟨false, 5, 14, 6, 255, 0⟩,
  ⟨true, 6, 14, 0, 63, 13⟩, ⟨false, 6, 15, 0, 255, 5⟩, ⟨false, 6, 16, 3, 255, 0⟩, ⟨true, 7, 16, 0, 7, 16⟩,
  ⟨false, 7, 17, 0, 255, 8⟩, ⟨false, 7, 18, 0, 255, 0⟩]

/-- `unpackBits20` bit_packing.go l.3819-3851 -/
def unpack20 : List Stmt := [
  ⟨true, 0, 0, 0, 255, 12⟩, ⟨false, 0, 1, 0, 255, 4⟩, ⟨false, 0, 2, 4, 255, 0⟩, ⟨true, 1, 2, 0, 15, 16⟩,
  ⟨false, 1, 3, 0, 255, 8⟩, ⟨false, 1, 4, 0, 255, 0⟩, ⟨true, 2, 5, 0, 255, 12⟩, ⟨false, 2, 6, 0, 255, 4⟩,
  ⟨false, 2, 7, 4, 255, 0⟩, ⟨true, 3, 7, 0, 15, 16⟩, ⟨false, 3, 8, 0, 255, 8⟩, ⟨false, 3, 9, 0, 255, 0⟩,
  ⟨true, 4, 10, 0, 255, 12⟩, ⟨false, 4, 11, 0, 255, 4⟩, ⟨false, 4, 12, 4, 255, 0⟩, ⟨true, 5, 12, 0, 15, 16⟩,
  ⟨false, 5, 13, 0, 255, 8⟩, ⟨false, 5, 14, 0, 255, 0⟩, ⟨true, 6, 15, 0, 255, 12⟩, ⟨false, 6, 16, 0, 255, 4⟩,
  ⟨false, 6, 17, 4, 255, 0⟩, ⟨true, 7, 17, 0, 15, 16⟩, ⟨false, 7, 18, 0, 255, 8⟩, ⟨false, 7, 19, 0, 255, 0⟩]

/-- `unpackBits21` bit_packing.go l.3853-3889 -/
def unpack21 : List Stmt := [
  ⟨true, 0, 0, 0, 255, 13⟩, ⟨false, 0, 1, 0, 255, 5⟩, ⟨false, 0, 2, 3, 255, 0⟩, ⟨true, 1, 2, 0, 7, 18⟩,
  ⟨false, 1, 3, 0, 255, 10⟩, ⟨false, 1, 4, 0, 255, 2⟩, ⟨false, 1, 5, 6, 255, 0⟩, ⟨true, 2, 5, 0, 63, 15⟩,
  ⟨false, 2, 6, 0, 255, 7⟩, ⟨false, 2, 7, 1, 255, 0⟩, ⟨true, 3, 7, 0, 1, 20⟩, ⟨false, 3, 8, 0, 255, 12⟩,
  ⟨false, 3, 9, 0, 255, 4⟩, ⟨false, 3, 10, 4, 255, 0⟩, ⟨true, 4, 10, 0, 15, 17⟩, ⟨false, 4, 11, 0, 255, 9⟩,
  ⟨false, 4, 12, 0, 255, 1⟩, ⟨false, 4, 13, 7, 255, 0⟩, ⟨true, 5, 13, 0, 127, 14⟩, ⟨false, 5, 14, 0, 255, 6⟩,
  ⟨false, 5, 15, 2, 255, 0⟩, ⟨true, 6, 15, 0, 3, 19⟩, ⟨false, 6, 16, 0, 255, 11⟩, ⟨false, 6, 17, 0, 255, 3⟩,
  ⟨false, 6, 18, 5, 255, 0⟩, ⟨true, 7, 18, 0, 31, 16⟩, ⟨false, 7, 19, 0, 255, 8⟩, ⟨false, 7, 20, 0, 255, 0⟩]

/-- `unpackBits22` bit_packing.go l.3891-3927 -/
def unpack22 : List Stmt := [
  ⟨true, 0, 0, 0, 255, 14⟩, ⟨false, 0, 1, 0, 255, 6⟩, ⟨false, 0, 2, 2, 255, 0⟩, ⟨true, 1, 2, 0, 3, 20⟩,
  ⟨false, 1, 3, 0, 255, 12⟩, ⟨false, 1, 4, 0, 255, 4⟩, ⟨false, 1, 5, 4, 255, 0⟩, ⟨true, 2, 5, 0, 15, 18⟩,
  ⟨false, 2, 6, 0, 255, 10⟩, ⟨false, 2, 7, 0, 255, 2⟩, ⟨false, 2, 8, 6, 255, 0⟩, ⟨true, 3, 8, 0, 63, 16⟩,
  ⟨false, 3, 9, 0, 255, 8⟩, ⟨false, 3, 10, 0, 255, 0⟩, ⟨true, 4, 11, 0, 255, 14⟩, ⟨false, 4, 12, 0, 255, 6⟩,
  ⟨false, 4, 13, 2, 255, 0⟩, ⟨true, 5, 13, 0, 3, 20⟩, ⟨false, 5, 14, 0, 255, 12⟩, ⟨false, 5, 15, 0, 255, 4⟩,
  ⟨false, 5, 16, 4, 255, 0⟩, ⟨true, 6, 16, 0, 15, 18⟩, ⟨false, 6, 17, 0, 255, 10⟩, ⟨false, 6, 18, 0, 255, 2⟩,
  ⟨false, 6, 19, 6, 255, 0⟩, ⟨true, 7, 19, 0, 63, 16⟩, ⟨false, 7, 20, 0, 255, 8⟩, ⟨false, 7, 21, 0, 255, 0⟩]

/-- `unpackBits23` bit_packing.go l.3929-3967 -/
def unpack23 : List Stmt := [
  ⟨true, 0, 0, 0, 255, 15⟩, ⟨false, 0, 1, 0, 255, 7⟩, ⟨false, 0, 2, 1, 255, 0⟩, ⟨true, 1, 2, 0, 1, 22⟩,
  ⟨false, 1, 3, 0, 255, 14⟩, ⟨false, 1, 4, 0, 255, 6⟩, ⟨false, 1, 5, 2, 255, 0⟩, ⟨true, 2, 5, 0, 3, 21⟩,
  ⟨false, 2, 6, 0, 255, 13⟩, ⟨false, 2, 7, 0, 255, 5⟩, ⟨false, 2, 8, 3, 255, 0⟩, ⟨true, 3, 8, 0, 7, 20⟩,
  ⟨false, 3, 9, 0, 255, 12⟩, ⟨false, 3, 10, 0, 255, 4⟩, ⟨false, 3, 11, 4, 255, 0⟩, ⟨true, 4, 11, 0, 15, 19⟩,
  ⟨false, 4, 12, 0, 255, 11⟩, ⟨false, 4, 13, 0, 255, 3⟩, ⟨false, 4, 14, 5, 255, 0⟩, ⟨true, 5, 14, 0, 31, 18⟩,
  ⟨false, 5, 15, 0, 255, 10⟩, ⟨false, 5, 16, 0, 255, 2⟩, ⟨false, 5, 17, 6, 255, 0⟩, ⟨true, 6, 17, 0, 63, 17⟩,
  ⟨false, 6, 18, 0, 255, 9⟩, ⟨false, 6, 19, 0, 255, 1⟩, ⟨false, 6, 20, 7, 255, 0⟩, ⟨true, 7, 20, 0, 127, 16⟩,
  ⟨false, 7, 21, 0, 255, 8⟩, ⟨false, 7, 22, 0, 255, 0⟩]

/-- `unpackBits24` bit_packing.go l.3969-3994 -/
def unpack24 : List Stmt := [
  ⟨true, 0, 0, 0, 255, 16⟩, ⟨false, 0, 1, 0, 255, 8⟩, ⟨false, 0, 2, 0, 255, 0⟩, ⟨true, 1, 3, 0, 255, 16⟩,
  ⟨false, 1, 4, 0, 255, 8⟩, ⟨false, 1, 5, 0, 255, 0⟩, ⟨true, 2, 6, 0, 255, 16⟩, ⟨false, 2, 7, 0, 255, 8⟩,
  ⟨false, 2, 8, 0, 255, 0⟩, ⟨true, 3, 9, 0, 255, 16⟩, ⟨false, 3, 10, 0, 255, 8⟩, ⟨false, 3, 11, 0, 255, 0⟩,
  ⟨true, 4, 12, 0, 255, 16⟩, ⟨false, 4, 13, 0, 255, 8⟩, ⟨false, 4, 14, 0, 255, 0⟩, ⟨true, 5, 15, 0, 255, 16⟩,
  ⟨false, 5, 16, 0, 255, 8⟩, ⟨false, 5, 17, 0, 255, 0⟩, ⟨true, 6, 18, 0, 255, 16⟩, ⟨false, 6, 19, 0, 255, 8⟩,
  ⟨false, 6, 20, 0, 255, 0⟩, ⟨true, 7, 21, 0, 255, 16⟩, ⟨false, 7, 22, 0, 255, 8⟩, ⟨false, 7, 23, 0, 255, 0⟩]

/-- `unpackBits25` bit_packing.go l.3996-4036 -/
def unpack25 : List Stmt := [
  ⟨true, 0, 0, 0, 255, 17⟩, ⟨false, 0, 1, 0, 255, 9⟩, ⟨false, 0, 2, 0, 255, 1⟩, ⟨false, 0, 3, 7, 255, 0⟩,
  ⟨true, 1, 3, 0, 127, 18⟩, ⟨false, 1, 4, 0, 255, 10⟩, ⟨false, 1, 5, 0, 255, 2⟩, ⟨false, 1, 6, 6, 255, 0⟩,
  ⟨true, 2, 6, 0, 63, 19⟩, ⟨false, 2, 7, 0, 255, 11⟩, ⟨false, 2, 8, 0, 255, 3⟩, ⟨false, 2, 9, 5, 255, 0⟩,
  ⟨true, 3, 9, 0, 31, 20⟩, ⟨false, 3, 10, 0, 255, 12⟩, ⟨false, 3, 11, 0, 255, 4⟩, ⟨false, 3, 12, 4, 255, 0⟩,
  ⟨true, 4, 12, 0, 15, 21⟩, ⟨false, 4, 13, 0, 255, 13⟩, ⟨false, 4, 14, 0, 255, 5⟩, ⟨false, 4, 15, 3, 255, 0⟩,
  ⟨true, 5, 15, 0, 7, 22⟩, ⟨false, 5, 16, 0, 255, 14⟩, ⟨false, 5, 17, 0, 255, 6⟩, ⟨false, 5, 18, 2, 255, 0⟩,
  ⟨true, 6, 18, 0, 3, 23⟩, ⟨false, 6, 19, 0, 255, 15⟩, ⟨false, 6, 20, 0, 255, 7⟩, ⟨false, 6, 21, 1, 255, 0⟩,
  ⟨true, 7, 21, 0, 1, 24⟩, ⟨false, 7, 22, 0, 255, 16⟩, ⟨false, 7, 23, 0, 255, 8⟩, ⟨false, 7, 24, 0, 255, 0⟩]

/-- `unpackBits26` bit_packing.go l.4038-4078 -/
def unpack26 : List Stmt := [
  ⟨true, 0, 0, 0, 255, 18⟩, ⟨false, 0, 1, 0, 255, 10⟩, ⟨false, 0, 2, 0, 255, 2⟩, ⟨false, 0, 3, 6, 255, 0⟩,
  ⟨true, 1, 3, 0, 63, 20⟩, ⟨false, 1, 4, 0, 255, 12⟩, ⟨false, 1, 5, 0, 255, 4⟩, ⟨false, 1, 6, 4, 255, 0⟩,
  ⟨true, 2, 6, 0, 15, 22⟩, ⟨false, 2, 7, 0, 255, 14⟩, ⟨false, 2, 8, 0, 255, 6⟩, ⟨false, 2, 9, 2, 255, 0⟩,
  ⟨true, 3, 9, 0, 3, 24⟩, ⟨false, 3, 10, 0, 255, 16⟩, ⟨false, 3, 11, 0, 255, 8⟩, ⟨false, 3, 12, 0, 255, 0⟩,
  ⟨true, 4, 13, 0, 255, 18⟩, ⟨false, 4, 14, 0, 255, 10⟩, ⟨false, 4, 15, 0, 255, 2⟩, ⟨false, 4, 16, 6, 255, 0⟩,
  ⟨true, 5, 16, 0, 63, 20⟩, ⟨false, 5, 17, 0, 255, 12⟩, ⟨false, 5, 18, 0, 255, 4⟩, ⟨false, 5, 19, 4, 255, 0⟩,
  ⟨true, 6, 19, 0, 15, 22⟩, ⟨false, 6, 20, 0, 255, 14⟩, ⟨false, 6, 21, 0, 255, 6⟩, ⟨false, 6, 22, 2, 255, 0⟩,
  ⟨true, 7, 22, 0, 3, 24⟩, ⟨false, 7, 23, 0, 255, 16⟩, ⟨false, 7, 24, 0, 255, 8⟩, ⟨false, 7, 25, 0, 255, 0⟩]

/-- `unpackBits27` bit_packing.go l.4080-4122 -/
def unpack27 : List Stmt := [
  ⟨true, 0, 0, 0, 255, 19⟩, ⟨false, 0, 1, 0, 255, 11⟩, ⟨false, 0, 2, 0, 255, 3⟩, ⟨false, 0, 3, 5, 255, 0⟩,
  ⟨true, 1, 3, 0, 31, 22⟩, ⟨false, 1, 4, 0, 255, 14⟩, ⟨false, 1, 5, 0, 255, 6⟩, ⟨false, 1, 6, 2, 255, 0⟩,
  ⟨true, 2, 6, 0, 3, 25⟩, ⟨false, 2, 7, 0, 255, 17⟩, ⟨false, 2, 8, 0, 255, 9⟩, ⟨false, 2, 9, 0, 255, 1⟩,
  ⟨false, 2, 10, 7, 255, 0⟩, ⟨true, 3, 10, 0, 127, 20⟩, ⟨false, 3, 11, 0, 255, 12⟩, ⟨false, 3, 12, 0, 255, 4⟩,
  ⟨false, 3, 13, 4, 255, 0⟩, ⟨true, 4, 13, 0, 15, 23⟩, ⟨false, 4, 14, 0, 255, 15⟩, ⟨false, 4, 15, 0, 255, 7⟩,
  ⟨false, 4, 16, 1, 255, 0⟩, ⟨true, 5, 16, 0, 1, 26⟩, ⟨false, 5, 17, 0, 255, 18⟩, ⟨false, 5, 18, 0, 255, 10⟩,
  ⟨false, 5, 19, 0, 255, 2⟩, ⟨false, 5, 20, 6, 255, 0⟩, ⟨true, 6, 20, 0, 63, 21⟩, ⟨false, 6, 21, 0, 255, 13⟩,
  ⟨false, 6, 22, 0, 255, 5⟩, ⟨false, 6, 23, 3, 255, 0⟩, ⟨true, 7, 23, 0, 7, 24⟩, ⟨false, 7, 24, 0, 255, 16⟩,
  ⟨false, 7, 25, 0, 255, 8⟩, ⟨false, 7, 26, 0, 255, 0⟩]

/-- `unpackBits28` bit_packing.go l.4124-4164 -/
def unpack28 : List Stmt := [
  ⟨true, 0, 0, 0, 255, 20⟩, ⟨false, 0, 1, 0, 255, 12⟩, ⟨false, 0, 2, 0, 255, 4⟩, ⟨false, 0, 3, 4, 255, 0⟩,
  ⟨true, 1, 3, 0, 15, 24⟩, ⟨false, 1, 4, 0, 255, 16⟩, ⟨false, 1, 5, 0, 255, 8⟩, ⟨false, 1, 6, 0, 255, 0⟩,
  ⟨true, 2, 7, 0, 255, 20⟩, ⟨false, 2, 8, 0, 255, 12⟩, ⟨false, 2, 9, 0, 255, 4⟩, ⟨false, 2, 10, 4, 255, 0⟩,
  ⟨true, 3, 10, 0, 15, 24⟩, ⟨false, 3, 11, 0, 255, 16⟩, ⟨false, 3, 12, 0, 255, 8⟩, ⟨false, 3, 13, 0, 255, 0⟩,
  ⟨true, 4, 14, 0, 255, 20⟩, ⟨false, 4, 15, 0, 255, 12⟩, ⟨false, 4, 16, 0, 255, 4⟩, ⟨false, 4, 17, 4, 255, 0⟩,
  ⟨true, 5, 17, 0, 15, 24⟩, ⟨false, 5, 18, 0, 255, 16⟩, ⟨false, 5, 19, 0, 255, 8⟩, ⟨false, 5, 20, 0, 255, 0⟩,
  ⟨true, 6, 21, 0, 255, 20⟩, ⟨false, 6, 22, 0, 255, 12⟩, ⟨false, 6, 23, 0, 255, 4⟩, ⟨false, 6, 24, 4, 255, 0⟩,
  ⟨true, 7, 24, 0, 15, 24⟩, ⟨false, 7, 25, 0, 255, 16⟩, ⟨false, 7, 26, 0, 255, 8⟩, ⟨false, 7, 27, 0, 255, 0⟩]

/-- `unpackBits29` bit_packing.go l.4166-4210 -/
def unpack29 : List Stmt := [
  ⟨true, 0, 0, 0, 255, 21⟩, ⟨false, 0, 1, 0, 255, 13⟩, ⟨false, 0, 2, 0, 255, 5⟩, ⟨false, 0, 3, 3, 255, 0⟩,
  ⟨true, 1, 3, 0, 7, 26⟩, ⟨false, 1, 4, 0, 255, 18⟩, ⟨false, 1, 5, 0, 255, 10⟩, ⟨false, 1, 6, 0, 255, 2⟩,
  ⟨false, 1, 7, 6, 255, 0⟩, ⟨true, 2, 7, 0, 63, 23⟩, ⟨false, 2, 8, 0, 255, 15⟩, ⟨false, 2, 9, 0, 255, 7⟩,
  ⟨false, 2, 10, 1, 255, 0⟩, ⟨true, 3, 10, 0, 1, 28⟩, ⟨false, 3, 11, 0, 255, 20⟩, ⟨false, 3, 12, 0, 255, 12⟩,
  ⟨false, 3, 13, 0, 255, 4⟩, ⟨false, 3, 14, 4, 255, 0⟩, ⟨true, 4, 14, 0, 15, 25⟩, ⟨false, 4, 15, 0, 255, 17⟩,
  ⟨false, 4, 16, 0, 255, 9⟩, ⟨false, 4, 17, 0, 255, 1⟩, ⟨false, 4, 18, 7, 255, 0⟩, ⟨true, 5, 18, 0, 127, 22⟩,
  ⟨false, 5, 19, 0, 255, 14⟩, ⟨false, 5, 20, 0, 255, 6⟩, ⟨false, 5, 21, 2, 255, 0⟩, ⟨true, 6, 21, 0, 3, 27⟩,
  ⟨false, 6, 22, 0, 255, 19⟩, ⟨false, 6, 23, 0, 255, 11⟩, ⟨false, 6, 24, 0, 255, 3⟩, ⟨false, 6, 25, 5, 255, 0⟩,
  ⟨true, 7, 25, 0, 31, 24⟩, ⟨false, 7, 26, 0, 255, 16⟩, ⟨false, 7, 27, 0, 255, 8⟩, ⟨false, 7, 28, 0, 255, 0⟩]

/-- `unpackBits30` bit_packing.go l.4212-4256 -/
def unpack30 : List Stmt := [
  ⟨true, 0, 0, 0, 255, 22⟩, ⟨false, 0, 1, 0, 255, 14⟩, ⟨false, 0, 2, 0, 255, 6⟩, ⟨false, 0, 3, 2, 255, 0⟩,
  ⟨true, 1, 3, 0, 3, 28⟩, ⟨false, 1, 4, 0, 255, 20⟩, ⟨false, 1, 5, 0, 255, 12⟩, ⟨false, 1, 6, 0, 255, 4⟩,
  ⟨false, 1, 7, 4, 255, 0⟩, ⟨true, 2, 7, 0, 15, 26⟩, ⟨false, 2, 8, 0, 255, 18⟩, ⟨false, 2, 9, 0, 255, 10⟩,
  ⟨false, 2, 10, 0, 255, 2⟩, ⟨false, 2, 11, 6, 255, 0⟩, ⟨true, 3, 11, 0, 63, 24⟩, ⟨false, 3, 12, 0, 255, 16⟩,
  ⟨false, 3, 13, 0, 255, 8⟩, ⟨false, 3, 14, 0, 255, 0⟩, ⟨true, 4, 15, 0, 255, 22⟩, ⟨false, 4, 16, 0, 255, 14⟩,
  ⟨false, 4, 17, 0, 255, 6⟩, ⟨false, 4, 18, 2, 255, 0⟩, ⟨true, 5, 18, 0, 3, 28⟩, ⟨false, 5, 19, 0, 255, 20⟩,
  ⟨false, 5, 20, 0, 255, 12⟩, ⟨false, 5, 21, 0, 255, 4⟩, ⟨false, 5, 22, 4, 255, 0⟩, ⟨true, 6, 22, 0, 15, 26⟩,
  ⟨false, 6, 23, 0, 255, 18⟩, ⟨false, 6, 24, 0, 255, 10⟩, ⟨false, 6, 25, 0, 255, 2⟩, ⟨false, 6, 26, 6, 255, 0⟩,
  ⟨true, 7, 26, 0, 63, 24⟩, ⟨false, 7, 27, 0, 255, 16⟩, ⟨false, 7, 28, 0, 255, 8⟩, ⟨false, 7, 29, 0, 255, 0⟩]

/-- `unpackBits31` bit_packing.go l.4258-4304 -/
def unpack31 : List Stmt := [
  ⟨true, 0, 0, 0, 255, 23⟩, ⟨false, 0, 1, 0, 255, 15⟩, ⟨false, 0, 2, 0, 255, 7⟩, ⟨false, 0, 3, 1, 255, 0⟩,
  ⟨true, 1, 3, 0, 1, 30⟩, ⟨false, 1, 4, 0, 255, 22⟩, ⟨false, 1, 5, 0, 255, 14⟩, ⟨false, 1, 6, 0, 255, 6⟩,
  ⟨false, 1, 7, 2, 255, 0⟩, ⟨true, 2, 7, 0, 3, 29⟩, ⟨false, 2, 8, 0, 255, 21⟩, ⟨false, 2, 9, 0, 255, 13⟩,
  ⟨false, 2, 10, 0, 255, 5⟩, ⟨false, 2, 11, 3, 255, 0⟩, ⟨true, 3, 11, 0, 7, 28⟩, ⟨false, 3, 12, 0, 255, 20⟩,
  ⟨false, 3, 13, 0, 255, 12⟩, ⟨false, 3, 14, 0, 255, 4⟩, ⟨false, 3, 15, 4, 255, 0⟩, ⟨true, 4, 15, 0, 15, 27⟩,
  ⟨false, 4, 16, 0, 255, 19⟩, ⟨false, 4, 17, 0, 255, 11⟩, ⟨false, 4, 18, 0, 255, 3⟩, ⟨false, 4, 19, 5, 255, 0⟩,
  ⟨true, 5, 19, 0, 31, 26⟩, ⟨false, 5, 20, 0, 255, 18⟩, ⟨false, 5, 21, 0, 255, 10⟩, ⟨false, 5, 22, 0, 255, 2⟩,
  ⟨false, 5, 23, 6, 255, 0⟩, ⟨true, 6, 23, 0, 63, 25⟩, ⟨false, 6, 24, 0, 255, 17⟩, ⟨false, 6, 25, 0, 255, 9⟩,
  ⟨false, 6, 26, 0, 255, 1⟩, ⟨false, 6, 27, 7, 255, 0⟩, ⟨true, 7, 27, 0, 127, 24⟩, ⟨false, 7, 28, 0, 255, 16⟩,
  ⟨false, 7, 29, 0, 255, 8⟩, ⟨false, 7, 30, 0, 255, 0⟩]

/-- `unpackBits32` bit_packing.go l.4306-4339 -/
def unpack32 : List Stmt := [
  ⟨true, 0, 0, 0, 255, 24⟩, ⟨false, 0, 1, 0, 255, 16⟩, ⟨false, 0, 2, 0, 255, 8⟩, ⟨false, 0, 3, 0, 255, 0⟩,
  ⟨true, 1, 4, 0, 255, 24⟩, ⟨false, 1, 5, 0, 255, 16⟩, ⟨false, 1, 6, 0, 255, 8⟩, ⟨false, 1, 7, 0, 255, 0⟩,
  ⟨true, 2, 8, 0, 255, 24⟩, ⟨false, 2, 9, 0, 255, 16⟩, ⟨false, 2, 10, 0, 255, 8⟩, ⟨false, 2, 11, 0, 255, 0⟩,
  ⟨true, 3, 12, 0, 255, 24⟩, ⟨false, 3, 13, 0, 255, 16⟩, ⟨false, 3, 14, 0, 255, 8⟩, ⟨false, 3, 15, 0, 255, 0⟩,
  ⟨true, 4, 16, 0, 255, 24⟩, ⟨false, 4, 17, 0, 255, 16⟩, ⟨false, 4, 18, 0, 255, 8⟩, ⟨false, 4, 19, 0, 255, 0⟩,
  ⟨true, 5, 20, 0, 255, 24⟩, ⟨false, 5, 21, 0, 255, 16⟩, ⟨false, 5, 22, 0, 255, 8⟩, ⟨false, 5, 23, 0, 255, 0⟩,
  ⟨true, 6, 24, 0, 255, 24⟩, ⟨false, 6, 25, 0, 255, 16⟩, ⟨false, 6, 26, 0, 255, 8⟩, ⟨false, 6, 27, 0, 255, 0⟩,
  ⟨true, 7, 28, 0, 255, 24⟩, ⟨false, 7, 29, 0, 255, 16⟩, ⟨false, 7, 30, 0, 255, 8⟩, ⟨false, 7, 31, 0, 255, 0⟩]

/-- `unpackBits33` bit_packing.go l.4341-4389 -/
def unpack33 : List Stmt := [
  ⟨true, 0, 0, 0, 255, 25⟩, ⟨false, 0, 1, 0, 255, 17⟩, ⟨false, 0, 2, 0, 255, 9⟩, ⟨false, 0, 3, 0, 255, 1⟩,
  ⟨false, 0, 4, 7, 255, 0⟩, ⟨true, 1, 4, 0, 127, 26⟩, ⟨false, 1, 5, 0, 255, 18⟩, ⟨false, 1, 6, 0, 255, 10⟩,
  ⟨false, 1, 7, 0, 255, 2⟩, ⟨false, 1, 8, 6, 255, 0⟩, ⟨true, 2, 8, 0, 63, 27⟩, ⟨false, 2, 9, 0, 255, 19⟩,
  ⟨false, 2, 10, 0, 255, 11⟩, ⟨false, 2, 11, 0, 255, 3⟩, ⟨false, 2, 12, 5, 255, 0⟩, ⟨true, 3, 12, 0, 31, 28⟩,
  ⟨false, 3, 13, 0, 255, 20⟩, ⟨false, 3, 14, 0, 255, 12⟩, ⟨false, 3, 15, 0, 255, 4⟩, ⟨false, 3, 16, 4, 255, 0⟩,
  ⟨true, 4, 16, 0, 15, 29⟩, ⟨false, 4, 17, 0, 255, 21⟩, ⟨false, 4, 18, 0, 255, 13⟩, ⟨false, 4, 19, 0, 255, 5⟩,
  ⟨false, 4, 20, 3, 255, 0⟩, ⟨true, 5, 20, 0, 7, 30⟩, ⟨false, 5, 21, 0, 255, 22⟩, ⟨false, 5, 22, 0, 255, 14⟩,
  ⟨false, 5, 23, 0, 255, 6⟩, ⟨false, 5, 24, 2, 255, 0⟩, ⟨true, 6, 24, 0, 3, 31⟩, ⟨false, 6, 25, 0, 255, 23⟩,
  ⟨false, 6, 26, 0, 255, 15⟩, ⟨false, 6, 27, 0, 255, 7⟩, ⟨false, 6, 28, 1, 255, 0⟩, ⟨true, 7, 28, 0, 1, 32⟩,
  ⟨false, 7, 29, 0, 255, 24⟩, ⟨false, 7, 30, 0, 255, 16⟩, ⟨false, 7, 31, 0, 255, 8⟩, ⟨false, 7, 32, 0, 255, 0⟩]

/-- `unpackBits34` bit_packing.go l.4391-4439 -/
def unpack34 : List Stmt := [
  ⟨true, 0, 0, 0, 255, 26⟩, ⟨false, 0, 1, 0, 255, 18⟩, ⟨false, 0, 2, 0, 255, 10⟩, ⟨false, 0, 3, 0, 255, 2⟩,
  ⟨false, 0, 4, 6, 255, 0⟩, ⟨true, 1, 4, 0, 63, 28⟩, ⟨false, 1, 5, 0, 255, 20⟩, ⟨false, 1, 6, 0, 255, 12⟩,
  ⟨false, 1, 7, 0, 255, 4⟩, ⟨false, 1, 8, 4, 255, 0⟩, ⟨true, 2, 8, 0, 15, 30⟩, ⟨false, 2, 9, 0, 255, 22⟩,
  ⟨false, 2, 10, 0, 255, 14⟩, ⟨false, 2, 11, 0, 255, 6⟩, ⟨false, 2, 12, 2, 255, 0⟩, ⟨true, 3, 12, 0, 3, 32⟩,
  ⟨false, 3, 13, 0, 255, 24⟩, ⟨false, 3, 14, 0, 255, 16⟩, ⟨false, 3, 15, 0, 255, 8⟩, ⟨false, 3, 16, 0, 255, 0⟩,
  ⟨true, 4, 17, 0, 255, 26⟩, ⟨false, 4, 18, 0, 255, 18⟩, ⟨false, 4, 19, 0, 255, 10⟩, ⟨false, 4, 20, 0, 255, 2⟩,
  ⟨false, 4, 21, 6, 255, 0⟩, ⟨true, 5, 21, 0, 63, 28⟩, ⟨false, 5, 22, 0, 255, 20⟩, ⟨false, 5, 23, 0, 255, 12⟩,
  ⟨false, 5, 24, 0, 255, 4⟩, ⟨false, 5, 25, 4, 255, 0⟩, ⟨true, 6, 25, 0, 15, 30⟩, ⟨false, 6, 26, 0, 255, 22⟩,
  ⟨false, 6, 27, 0, 255, 14⟩, ⟨false, 6, 28, 0, 255, 6⟩, ⟨false, 6, 29, 2, 255, 0⟩, ⟨true, 7, 29, 0, 3, 32⟩,
  ⟨false, 7, 30, 0, 255, 24⟩, ⟨false, 7, 31, 0, 255, 16⟩, ⟨false, 7, 32, 0, 255, 8⟩, ⟨false, 7, 33, 0, 255, 0⟩]

/-- `unpackBits35` bit_packing.go l.4441-4491 -/
def unpack35 : List Stmt := [
  ⟨true, 0, 0, 0, 255, 27⟩, ⟨false, 0, 1, 0, 255, 19⟩, ⟨false, 0, 2, 0, 255, 11⟩, ⟨false, 0, 3, 0, 255, 3⟩,
  ⟨false, 0, 4, 5, 255, 0⟩, ⟨true, 1, 4, 0, 31, 30⟩, ⟨false, 1, 5, 0, 255, 22⟩, ⟨false, 1, 6, 0, 255, 14⟩,
  ⟨false, 1, 7, 0, 255, 6⟩, ⟨false, 1, 8, 2, 255, 0⟩, ⟨true, 2, 8, 0, 3, 33⟩, ⟨false, 2, 9, 0, 255, 25⟩,
  ⟨false, 2, 10, 0, 255, 17⟩, ⟨false, 2, 11, 0, 255, 9⟩, ⟨false, 2, 12, 0, 255, 1⟩, ⟨false, 2, 13, 7, 255, 0⟩,
  ⟨true, 3, 13, 0, 127, 28⟩, ⟨false, 3, 14, 0, 255, 20⟩, ⟨false, 3, 15, 0, 255, 12⟩, ⟨false, 3, 16, 0, 255, 4⟩,
  ⟨false, 3, 17, 4, 255, 0⟩, ⟨true, 4, 17, 0, 15, 31⟩, ⟨false, 4, 18, 0, 255, 23⟩, ⟨false, 4, 19, 0, 255, 15⟩,
  ⟨false, 4, 20, 0, 255, 7⟩, ⟨false, 4, 21, 1, 255, 0⟩, ⟨true, 5, 21, 0, 1, 34⟩, ⟨false, 5, 22, 0, 255, 26⟩,
  ⟨false, 5, 23, 0, 255, 18⟩, ⟨false, 5, 24, 0, 255, 10⟩, ⟨false, 5, 25, 0, 255, 2⟩, ⟨false, 5, 26, 6, 255, 0⟩,
  ⟨true, 6, 26, 0, 63, 29⟩, ⟨false, 6, 27, 0, 255, 21⟩, ⟨false, 6, 28, 0, 255, 13⟩, ⟨false, 6, 29, 0, 255, 5⟩,
  ⟨false, 6, 30, 3, 255, 0⟩, ⟨true, 7, 30, 0, 7, 32⟩, ⟨false, 7, 31, 0, 255, 24⟩, ⟨false, 7, 32, 0, 255, 16⟩,
  ⟨false, 7, 33, 0, 255, 8⟩, ⟨false, 7, 34, 0, 255, 0⟩]

/-- `unpackBits36` bit_packing.go l.4493-4541 -/
def unpack36 : List Stmt := [
  ⟨true, 0, 0, 0, 255, 28⟩, ⟨false, 0, 1, 0, 255, 20⟩, ⟨false, 0, 2, 0, 255, 12⟩, ⟨false, 0, 3, 0, 255, 4⟩,
  ⟨false, 0, 4, 4, 255, 0⟩, ⟨true, 1, 4, 0, 15, 32⟩, ⟨false, 1, 5, 0, 255, 24⟩, ⟨false, 1, 6, 0, 255, 16⟩,
  ⟨false, 1, 7, 0, 255, 8⟩, ⟨false, 1, 8, 0, 255, 0⟩, ⟨true, 2, 9, 0, 255, 28⟩, ⟨false, 2, 10, 0, 255, 20⟩,
  ⟨false, 2, 11, 0, 255, 12⟩, ⟨false, 2, 12, 0, 255, 4⟩, ⟨false, 2, 13, 4, 255, 0⟩, ⟨true, 3, 13, 0, 15, 32⟩,
  ⟨false, 3, 14, 0, 255, 24⟩, ⟨false, 3, 15, 0, 255, 16⟩, ⟨false, 3, 16, 0, 255, 8⟩, ⟨false, 3, 17, 0, 255, 0⟩,
  ⟨true, 4, 18, 0, 255, 28⟩, ⟨false, 4, 19, 0, 255, 20⟩, ⟨false, 4, 20, 0, 255, 12⟩, ⟨false, 4, 21, 0, 255, 4⟩,
  ⟨false, 4, 22, 4, 255, 0⟩, ⟨true, 5, 22, 0, 15, 32⟩, ⟨false, 5, 23, 0, 255, 24⟩, ⟨false, 5, 24, 0, 255, 16⟩,
  ⟨false, 5, 25, 0, 255, 8⟩, ⟨false, 5, 26, 0, 255, 0⟩, ⟨true, 6, 27, 0, 255, 28⟩, ⟨false, 6, 28, 0, 255, 20⟩,
  ⟨false, 6, 29, 0, 255, 12⟩, ⟨false, 6, 30, 0, 255, 4⟩, ⟨false, 6, 31, 4, 255, 0⟩, ⟨true, 7, 31, 0, 15, 32⟩,
  ⟨false, 7, 32, 0, 255, 24⟩, ⟨false, 7, 33, 0, 255, 16⟩, ⟨false, 7, 34, 0, 255, 8⟩, ⟨false, 7, 35, 0, 255, 0⟩]

/-- `unpackBits37` bit_packing.go l.4543-4595 -/
def unpack37 : List Stmt := [
  ⟨true, 0, 0, 0, 255, 29⟩, ⟨false, 0, 1, 0, 255, 21⟩, ⟨false, 0, 2, 0, 255, 13⟩, ⟨false, 0, 3, 0, 255, 5⟩,
  ⟨false, 0, 4, 3, 255, 0⟩, ⟨true, 1, 4, 0, 7, 34⟩, ⟨false, 1, 5, 0, 255, 26⟩, ⟨false, 1, 6, 0, 255, 18⟩,
  ⟨false, 1, 7, 0, 255, 10⟩, ⟨false, 1, 8, 0, 255, 2⟩, ⟨false, 1, 9, 6, 255, 0⟩, ⟨true, 2, 9, 0, 63, 31⟩,
  ⟨false, 2, 10, 0, 255, 23⟩, ⟨false, 2, 11, 0, 255, 15⟩, ⟨false, 2, 12, 0, 255, 7⟩, ⟨false, 2, 13, 1, 255, 0⟩,
  ⟨true, 3, 13, 0, 1, 36⟩, ⟨false, 3, 14, 0, 255, 28⟩, ⟨false, 3, 15, 0, 255, 20⟩, ⟨false, 3, 16, 0, 255, 12⟩,
  ⟨false, 3, 17, 0, 255, 4⟩, ⟨false, 3, 18, 4, 255, 0⟩, ⟨true, 4, 18, 0, 15, 33⟩, ⟨false, 4, 19, 0, 255, 25⟩,
  ⟨false, 4, 20, 0, 255, 17⟩, ⟨false, 4, 21, 0, 255, 9⟩, ⟨false, 4, 22, 0, 255, 1⟩, ⟨false, 4, 23, 7, 255, 0⟩,
  ⟨true, 5, 23, 0, 127, 30⟩, ⟨false, 5, 24, 0, 255, 22⟩, ⟨false, 5, 25, 0, 255, 14⟩, ⟨false, 5, 26, 0, 255, 6⟩,
  ⟨false, 5, 27, 2, 255, 0⟩, ⟨true, 6, 27, 0, 3, 35⟩, ⟨false, 6, 28, 0, 255, 27⟩, ⟨false, 6, 29, 0, 255, 19⟩,
  ⟨false, 6, 30, 0, 255, 11⟩, ⟨false, 6, 31, 0, 255, 3⟩, ⟨false, 6, 32, 5, 255, 0⟩, ⟨true, 7, 32, 0, 31, 32⟩,
  ⟨false, 7, 33, 0, 255, 24⟩, ⟨false, 7, 34, 0, 255, 16⟩, ⟨false, 7, 35, 0, 255, 8⟩, ⟨false, 7, 36, 0, 255, 0⟩]

/-- `unpackBits38` bit_packing.go l.4597-4649 -/
def unpack38 : List Stmt := [
  ⟨true, 0, 0, 0, 255, 30⟩, ⟨false, 0, 1, 0, 255, 22⟩, ⟨false, 0, 2, 0, 255, 14⟩, ⟨false, 0, 3, 0, 255, 6⟩,
  ⟨false, 0, 4, 2, 255, 0⟩, ⟨true, 1, 4, 0, 3, 36⟩, ⟨false, 1, 5, 0, 255, 28⟩, ⟨false, 1, 6, 0, 255, 20⟩,
  ⟨false, 1, 7, 0, 255, 12⟩, ⟨false, 1, 8, 0, 255, 4⟩, ⟨false, 1, 9, 4, 255, 0⟩, ⟨true, 2, 9, 0, 15, 34⟩,
  ⟨false, 2, 10, 0, 255, 26⟩, ⟨false, 2, 11, 0, 255, 18⟩, ⟨false, 2, 12, 0, 255, 10⟩, ⟨false, 2, 13, 0, 255, 2⟩,
  ⟨false, 2, 14, 6, 255, 0⟩, ⟨true, 3, 14, 0, 63, 32⟩, ⟨false, 3, 15, 0, 255, 24⟩, ⟨false, 3, 16, 0, 255, 16⟩,
  ⟨false, 3, 17, 0, 255, 8⟩, ⟨false, 3, 18, 0, 255, 0⟩, ⟨true, 4, 19, 0, 255, 30⟩, ⟨false, 4, 20, 0, 255, 22⟩,
  ⟨false, 4, 21, 0, 255, 14⟩, ⟨false, 4, 22, 0, 255, 6⟩, ⟨false, 4, 23, 2, 255, 0⟩, ⟨true, 5, 23, 0, 3, 36⟩,
  ⟨false, 5, 24, 0, 255, 28⟩, ⟨false, 5, 25, 0, 255, 20⟩, ⟨false, 5, 26, 0, 255, 12⟩, ⟨false, 5, 27, 0, 255, 4⟩,
  ⟨false, 5, 28, 4, 255, 0⟩, ⟨true, 6, 28, 0, 15, 34⟩, ⟨false, 6, 29, 0, 255, 26⟩, ⟨false, 6, 30, 0, 255, 18⟩,
  ⟨false, 6, 31, 0, 255, 10⟩, ⟨false, 6, 32, 0, 255, 2⟩, ⟨false, 6, 33, 6, 255, 0⟩, ⟨true, 7, 33, 0, 63, 32⟩,
  ⟨false, 7, 34, 0, 255, 24⟩, ⟨false, 7, 35, 0, 255, 16⟩, ⟨false, 7, 36, 0, 255, 8⟩, ⟨false, 7, 37, 0, 255, 0⟩]

/-- `unpackBits39` bit_packing.go l.4651-4705 -/
def unpack39 : List Stmt := [
  ⟨true, 0, 0, 0, 255, 31⟩, ⟨false, 0, 1, 0, 255, 23⟩, ⟨false, 0, 2, 0, 255, 15⟩, ⟨false, 0, 3, 0, 255, 7⟩,
  ⟨false, 0, 4, 1, 255, 0⟩, ⟨true, 1, 4, 0, 1, 38⟩, ⟨false, 1, 5, 0, 255, 30⟩, ⟨false, 1, 6, 0, 255, 22⟩,
  ⟨false, 1, 7, 0, 255, 14⟩, ⟨false, 1, 8, 0, 255, 6⟩, ⟨false, 1, 9, 2, 255, 0⟩, ⟨true, 2, 9, 0, 3, 37⟩,
  ⟨false, 2, 10, 0, 255, 29⟩, ⟨false, 2, 11, 0, 255, 21⟩, ⟨false, 2, 12, 0, 255, 13⟩, ⟨false, 2, 13, 0, 255, 5⟩,
  ⟨false, 2, 14, 3, 255, 0⟩, ⟨true, 3, 14, 0, 7, 36⟩, ⟨false, 3, 15, 0, 255, 28⟩, ⟨false, 3, 16, 0, 255, 20⟩,
  ⟨false, 3, 17, 0, 255, 12⟩, ⟨false, 3, 18, 0, 255, 4⟩, ⟨false, 3, 19, 4, 255, 0⟩, ⟨true, 4, 19, 0, 15, 35⟩,
  ⟨false, 4, 20, 0, 255, 27⟩, ⟨false, 4, 21, 0, 255, 19⟩, ⟨false, 4, 22, 0, 255, 11⟩, ⟨false, 4, 23, 0, 255, 3⟩,
  ⟨false, 4, 24, 5, 255, 0⟩, ⟨true, 5, 24, 0, 31, 34⟩, ⟨false, 5, 25, 0, 255, 26⟩, ⟨false, 5, 26, 0, 255, 18⟩,
  ⟨false, 5, 27, 0, 255, 10⟩, ⟨false, 5, 28, 0, 255, 2⟩, ⟨false, 5, 29, 6, 255, 0⟩, ⟨true, 6, 29, 0, 63, 33⟩,
  ⟨false, 6, 30, 0, 255, 25⟩, ⟨false, 6, 31, 0, 255, 17⟩, ⟨false, 6, 32, 0, 255, 9⟩, ⟨false, 6, 33, 0, 255, 1⟩,
  ⟨false, 6, 34, 7, 255, 0⟩, ⟨true, 7, 34, 0, 127, 32⟩, ⟨false, 7, 35, 0, 255, 24⟩, ⟨false, 7, 36, 0, 255, 16⟩,
  ⟨false, 7, 37, 0, 255, 8⟩, ⟨false, 7, 38, 0, 255, 0⟩]

/-- `unpackBits40` bit_packing.go l.4707-4748 -/
def unpack40 : List Stmt := [
  ⟨true, 0, 0, 0, 255, 32⟩, ⟨false, 0, 1, 0, 255, 24⟩, ⟨false, 0, 2, 0, 255, 16⟩, ⟨false, 0, 3, 0, 255, 8⟩,
  ⟨false, 0, 4, 0, 255, 0⟩, ⟨true, 1, 5, 0, 255, 32⟩, ⟨false, 1, 6, 0, 255, 24⟩, ⟨false, 1, 7, 0, 255, 16⟩,
  ⟨false, 1, 8, 0, 255, 8⟩, ⟨false, 1, 9, 0, 255, 0⟩, ⟨true, 2, 10, 0, 255, 32⟩, ⟨false, 2, 11, 0, 255, 24⟩,
  ⟨false, 2, 12, 0, 255, 16⟩, ⟨false, 2, 13, 0, 255, 8⟩, ⟨false, 2, 14, 0, 255, 0⟩, ⟨true, 3, 15, 0, 255, 32⟩,
  ⟨false, 3, 16, 0, 255, 24⟩, ⟨false, 3, 17, 0, 255, 16⟩, ⟨false, 3, 18, 0, 255, 8⟩, ⟨false, 3, 19, 0, 255, 0⟩,
  ⟨true, 4, 20, 0, 255, 32⟩, ⟨false, 4, 21, 0, 255, 24⟩, ⟨false, 4, 22, 0, 255, 16⟩, ⟨false, 4, 23, 0, 255, 8⟩,
  ⟨false, 4, 24, 0, 255, 0⟩, ⟨true, 5, 25, 0, 255, 32⟩, ⟨false, 5, 26, 0, 255, 24⟩, ⟨false, 5, 27, 0, 255, 16⟩,
  ⟨false, 5, 28, 0, 255, 8⟩, ⟨false, 5, 29, 0, 255, 0⟩, ⟨true, 6, 30, 0, 255, 32⟩, ⟨false, 6, 31, 0, 255, 24⟩,
  ⟨false, 6, 32, 0, 255, 16⟩, ⟨false, 6, 33, 0, 255, 8⟩, ⟨false, 6, 34, 0, 255, 0⟩, ⟨true, 7, 35, 0, 255, 32⟩,
  ⟨false, 7, 36, 0, 255, 24⟩, ⟨false, 7, 37, 0, 255, 16⟩, ⟨false, 7, 38, 0, 255, 8⟩, ⟨false, 7, 39, 0, 255, 0⟩]

/-- `unpackBits41` bit_packing.go l.4750-4806 -/
def unpack41 : List Stmt := [
  ⟨true, 0, 0, 0, 255, 33⟩, ⟨false, 0, 1, 0, 255, 25⟩, ⟨false, 0, 2, 0, 255, 17⟩, ⟨false, 0, 3, 0, 255, 9⟩,
  ⟨false, 0, 4, 0, 255, 1⟩, ⟨false, 0, 5, 7, 255, 0⟩, ⟨true, 1, 5, 0, 127, 34⟩, ⟨false, 1, 6, 0, 255, 26⟩,
  ⟨false, 1, 7, 0, 255, 18⟩, ⟨false, 1, 8, 0, 255, 10⟩, ⟨false, 1, 9, 0, 255, 2⟩, ⟨false, 1, 10, 6, 255, 0⟩,
  ⟨true, 2, 10, 0, 63, 35⟩, ⟨false, 2, 11, 0, 255, 27⟩, ⟨false, 2, 12, 0, 255, 19⟩, ⟨false, 2, 13, 0, 255, 11⟩,
  ⟨false, 2, 14, 0, 255, 3⟩, ⟨false, 2, 15, 5, 255, 0⟩, ⟨true, 3, 15, 0, 31, 36⟩, ⟨false, 3, 16, 0, 255, 28⟩,
  ⟨false, 3, 17, 0, 255, 20⟩, ⟨false, 3, 18, 0, 255, 12⟩, ⟨false, 3, 19, 0, 255, 4⟩, ⟨false, 3, 20, 4, 255, 0⟩,
  ⟨true, 4, 20, 0, 15, 37⟩, ⟨false, 4, 21, 0, 255, 29⟩, ⟨false, 4, 22, 0, 255, 21⟩, ⟨false, 4, 23, 0, 255, 13⟩,
  ⟨false, 4, 24, 0, 255, 5⟩, ⟨false, 4, 25, 3, 255, 0⟩, ⟨true, 5, 25, 0, 7, 38⟩, ⟨false, 5, 26, 0, 255, 30⟩,
  ⟨false, 5, 27, 0, 255, 22⟩, ⟨false, 5, 28, 0, 255, 14⟩, ⟨false, 5, 29, 0, 255, 6⟩, ⟨false, 5, 30, 2, 255, 0⟩,
  ⟨true, 6, 30, 0, 3, 39⟩, ⟨false, 6, 31, 0, 255, 31⟩, ⟨false, 6, 32, 0, 255, 23⟩, ⟨false, 6, 33, 0, 255, 15⟩,
  ⟨false, 6, 34, 0, 255, 7⟩, ⟨false, 6, 35, 1, 255, 0⟩, ⟨true, 7, 35, 0, 1, 40⟩, ⟨false, 7, 36, 0, 255, 32⟩,
  ⟨false, 7, 37, 0, 255, 24⟩, ⟨false, 7, 38, 0, 255, 16⟩, ⟨false, 7, 39, 0, 255, 8⟩, ⟨false, 7, 40, 0, 255, 0⟩]

/-- `unpackBits42` bit_packing.go l.4808-4864 -/
def unpack42 : List Stmt := [
  ⟨true, 0, 0, 0, 255, 34⟩, ⟨false, 0, 1, 0, 255, 26⟩, ⟨false, 0, 2, 0, 255, 18⟩, ⟨false, 0, 3, 0, 255, 10⟩,
  ⟨false, 0, 4, 0, 255, 2⟩, ⟨false, 0, 5, 6, 255, 0⟩, ⟨true, 1, 5, 0, 63, 36⟩, ⟨false, 1, 6, 0, 255, 28⟩,
  ⟨false, 1, 7, 0, 255, 20⟩, ⟨false, 1, 8, 0, 255, 12⟩, ⟨false, 1, 9, 0, 255, 4⟩, ⟨false, 1, 10, 4, 255, 0⟩,
  ⟨true, 2, 10, 0, 15, 38⟩, ⟨false, 2, 11, 0, 255, 30⟩, ⟨false, 2, 12, 0, 255, 22⟩, ⟨false, 2, 13, 0, 255, 14⟩,
  ⟨false, 2, 14, 0, 255, 6⟩, ⟨false, 2, 15, 2, 255, 0⟩, ⟨true, 3, 15, 0, 3, 40⟩, ⟨false, 3, 16, 0, 255, 32⟩,
  ⟨false, 3, 17, 0, 255, 24⟩, ⟨false, 3, 18, 0, 255, 16⟩, ⟨false, 3, 19, 0, 255, 8⟩, ⟨false, 3, 20, 0, 255, 0⟩,
  ⟨true, 4, 21, 0, 255, 34⟩, ⟨false, 4, 22, 0, 255, 26⟩, ⟨false, 4, 23, 0, 255, 18⟩, ⟨false, 4, 24, 0, 255, 10⟩,
  ⟨false, 4, 25, 0, 255, 2⟩, ⟨false, 4, 26, 6, 255, 0⟩, ⟨true, 5, 26, 0, 63, 36⟩, ⟨false, 5, 27, 0, 255, 28⟩,
  ⟨false, 5, 28, 0, 255, 20⟩, ⟨false, 5, 29, 0, 255, 12⟩, ⟨false, 5, 30, 0, 255, 4⟩, ⟨false, 5, 31, 4, 255, 0⟩,
  ⟨true, 6, 31, 0, 15, 38⟩, ⟨false, 6, 32, 0, 255, 30⟩, ⟨false, 6, 33, 0, 255, 22⟩, ⟨false, 6, 34, 0, 255, 14⟩,
  ⟨false, 6, 35, 0, 255, 6⟩, ⟨false, 6, 36, 2, 255, 0⟩, ⟨true, 7, 36, 0, 3, 40⟩, ⟨false, 7, 37, 0, 255, 32⟩,
  ⟨false, 7, 38, 0, 255, 24⟩, ⟨false, 7, 39, 0, 255, 16⟩, ⟨false, 7, 40, 0, 255, 8⟩, ⟨false, 7, 41, 0, 255, 0⟩]

/-- `unpackBits43` bit_packing.go l.4866-4924 -/
def unpack43 : List Stmt := [
  ⟨true, 0, 0, 0, 255, 35⟩, ⟨false, 0, 1, 0, 255, 27⟩, ⟨false, 0, 2, 0, 255, 19⟩, ⟨false, 0, 3, 0, 255, 11⟩,
  ⟨false, 0, 4, 0, 255, 3⟩, ⟨false, 0, 5, 5, 255, 0⟩, ⟨true, 1, 5, 0, 31, 38⟩, ⟨false, 1, 6, 0, 255, 30⟩,
  ⟨false, 1, 7, 0, 255, 22⟩, ⟨false, 1, 8, 0, 255, 14⟩, ⟨false, 1, 9, 0, 255, 6⟩, ⟨false, 1, 10, 2, 255, 0⟩,
  ⟨true, 2, 10, 0, 3, 41⟩, ⟨false, 2, 11, 0, 255, 33⟩, ⟨false, 2, 12, 0, 255, 25⟩, ⟨false, 2, 13, 0, 255, 17⟩,
  ⟨false, 2, 14, 0, 255, 9⟩, ⟨false, 2, 15, 0, 255, 1⟩, ⟨false, 2, 16, 7, 255, 0⟩, ⟨true, 3, 16, 0, 127, 36⟩,
  ⟨false, 3, 17, 0, 255, 28⟩, ⟨false, 3, 18, 0, 255, 20⟩, ⟨false, 3, 19, 0, 255, 12⟩, ⟨false, 3, 20, 0, 255, 4⟩,
  ⟨false, 3, 21, 4, 255, 0⟩, ⟨true, 4, 21, 0, 15, 39⟩, ⟨false, 4, 22, 0, 255, 31⟩, ⟨false, 4, 23, 0, 255, 23⟩,
  ⟨false, 4, 24, 0, 255, 15⟩, ⟨false, 4, 25, 0, 255, 7⟩, ⟨false, 4, 26, 1, 255, 0⟩, ⟨true, 5, 26, 0, 1, 42⟩,
  ⟨false, 5, 27, 0, 255, 34⟩, ⟨false, 5, 28, 0, 255, 26⟩, ⟨false, 5, 29, 0, 255, 18⟩, ⟨false, 5, 30, 0, 255, 10⟩,
  ⟨false, 5, 31, 0, 255, 2⟩, ⟨false, 5, 32, 6, 255, 0⟩, ⟨true, 6, 32, 0, 63, 37⟩, ⟨false, 6, 33, 0, 255, 29⟩,
  ⟨false, 6, 34, 0, 255, 21⟩, ⟨false, 6, 35, 0, 255, 13⟩, ⟨false, 6, 36, 0, 255, 5⟩, ⟨false, 6, 37, 3, 255, 0⟩,
  ⟨true, 7, 37, 0, 7, 40⟩, ⟨false, 7, 38, 0, 255, 32⟩, ⟨false, 7, 39, 0, 255, 24⟩, ⟨false, 7, 40, 0, 255, 16⟩,
  ⟨false, 7, 41, 0, 255, 8⟩, ⟨false, 7, 42, 0, 255, 0⟩]

/-- `unpackBits44` bit_packing.go l.4926-4982 -/
def unpack44 : List Stmt := [
  ⟨true, 0, 0, 0, 255, 36⟩, ⟨false, 0, 1, 0, 255, 28⟩, ⟨false, 0, 2, 0, 255, 20⟩, ⟨false, 0, 3, 0, 255, 12⟩,
  ⟨false, 0, 4, 0, 255, 4⟩, ⟨false, 0, 5, 4, 255, 0⟩, ⟨true, 1, 5, 0, 15, 40⟩, ⟨false, 1, 6, 0, 255, 32⟩,
  ⟨false, 1, 7, 0, 255, 24⟩, ⟨false, 1, 8, 0, 255, 16⟩, ⟨false, 1, 9, 0, 255, 8⟩, ⟨false, 1, 10, 0, 255, 0⟩,
  ⟨true, 2, 11, 0, 255, 36⟩, ⟨false, 2, 12, 0, 255, 28⟩, ⟨false, 2, 13, 0, 255, 20⟩, ⟨false, 2, 14, 0, 255, 12⟩,
  ⟨false, 2, 15, 0, 255, 4⟩, ⟨false, 2, 16, 4, 255, 0⟩, ⟨true, 3, 16, 0, 15, 40⟩, ⟨false, 3, 17, 0, 255, 32⟩,
  ⟨false, 3, 18, 0, 255, 24⟩, ⟨false, 3, 19, 0, 255, 16⟩, ⟨false, 3, 20, 0, 255, 8⟩, ⟨false, 3, 21, 0, 255, 0⟩,
  ⟨true, 4, 22, 0, 255, 36⟩, ⟨false, 4, 23, 0, 255, 28⟩, ⟨false, 4, 24, 0, 255, 20⟩, ⟨false, 4, 25, 0, 255, 12⟩,
  ⟨false, 4, 26, 0, 255, 4⟩, ⟨false, 4, 27, 4, 255, 0⟩, ⟨true, 5, 27, 0, 15, 40⟩, ⟨false, 5, 28, 0, 255, 32⟩,
  ⟨false, 5, 29, 0, 255, 24⟩, ⟨false, 5, 30, 0, 255, 16⟩, ⟨false, 5, 31, 0, 255, 8⟩, ⟨false, 5, 32, 0, 255, 0⟩,
  ⟨true, 6, 33, 0, 255, 36⟩, ⟨false, 6, 34, 0, 255, 28⟩, ⟨false, 6, 35, 0, 255, 20⟩, ⟨false, 6, 36, 0, 255, 12⟩,
  ⟨false, 6, 37, 0, 255, 4⟩, ⟨false, 6, 38, 4, 255, 0⟩, ⟨true, 7, 38, 0, 15, 40⟩, ⟨false, 7, 39, 0, 255, 32⟩,
  ⟨false, 7, 40, 0, 255, 24⟩, ⟨false, 7, 41, 0, 255, 16⟩, ⟨false, 7, 42, 0, 255, 8⟩, ⟨false, 7, 43, 0, 255, 0⟩]

/-- `unpackBits45` bit_packing.go l.4984-5044 -/
def unpack45 : List Stmt := [
  ⟨true, 0, 0, 0, 255, 37⟩, ⟨false, 0, 1, 0, 255, 29⟩, ⟨false, 0, 2, 0, 255, 21⟩, ⟨false, 0, 3, 0, 255, 13⟩,
  ⟨false, 0, 4, 0, 255, 5⟩, ⟨false, 0, 5, 3, 255, 0⟩, ⟨true, 1, 5, 0, 7, 42⟩, ⟨false, 1, 6, 0, 255, 34⟩,
  ⟨false, 1, 7, 0, 255, 26⟩, ⟨false, 1, 8, 0, 255, 18⟩, ⟨false, 1, 9, 0, 255, 10⟩, ⟨false, 1, 10, 0, 255, 2⟩,
  ⟨false, 1, 11, 6, 255, 0⟩, ⟨true, 2, 11, 0, 63, 39⟩, ⟨false, 2, 12, 0, 255, 31⟩, ⟨false, 2, 13, 0, 255, 23⟩,
  ⟨false, 2, 14, 0, 255, 15⟩, ⟨false, 2, 15, 0, 255, 7⟩, ⟨false, 2, 16, 1, 255, 0⟩, ⟨true, 3, 16, 0, 1, 44⟩,
  ⟨false, 3, 17, 0, 255, 36⟩, ⟨false, 3, 18, 0, 255, 28⟩, ⟨false, 3, 19, 0, 255, 20⟩, ⟨false, 3, 20, 0, 255, 12⟩,
  ⟨false, 3, 21, 0, 255, 4⟩, ⟨false, 3, 22, 4, 255, 0⟩, ⟨true, 4, 22, 0, 15, 41⟩, ⟨false, 4, 23, 0, 255, 33⟩,
  ⟨false, 4, 24, 0, 255, 25⟩, ⟨false, 4, 25, 0, 255, 17⟩, ⟨false, 4, 26, 0, 255, 9⟩, ⟨false, 4, 27, 0, 255, 1⟩,
  ⟨false, 4, 28, 7, 255, 0⟩, ⟨true, 5, 28, 0, 127, 38⟩, ⟨false, 5, 29, 0, 255, 30⟩, ⟨false, 5, 30, 0, 255, 22⟩,
  ⟨false, 5, 31, 0, 255, 14⟩, ⟨false, 5, 32, 0, 255, 6⟩, ⟨false, 5, 33, 2, 255, 0⟩, ⟨true, 6, 33, 0, 3, 43⟩,
  ⟨false, 6, 34, 0, 255, 35⟩, ⟨false, 6, 35, 0, 255, 27⟩, ⟨false, 6, 36, 0, 255, 19⟩, ⟨false, 6, 37, 0, 255, 11⟩,
  ⟨false, 6, 38, 0, 255, 3⟩, ⟨false, 6, 39, 5, 255, 0⟩, ⟨true, 7, 39, 0, 31, 40⟩, ⟨false, 7, 40, 0, 255, 32⟩,
  ⟨false, 7, 41, 0, 255, 24⟩, ⟨false, 7, 42, 0, 255, 16⟩, ⟨false, 7, 43, 0, 255, 8⟩, ⟨false, 7, 44, 0, 255, 0⟩]

/-- `unpackBits46` bit_packing.go l.5046-5106 -/
def unpack46 : List Stmt := [
  ⟨true, 0, 0, 0, 255, 38⟩, ⟨false, 0, 1, 0, 255, 30⟩, ⟨false, 0, 2, 0, 255, 22⟩, ⟨false, 0, 3, 0, 255, 14⟩,
  ⟨false, 0, 4, 0, 255, 6⟩, ⟨false, 0, 5, 2, 255, 0⟩, ⟨true, 1, 5, 0, 3, 44⟩, ⟨false, 1, 6, 0, 255, 36⟩,
  ⟨false, 1, 7, 0, 255, 28⟩, ⟨false, 1, 8, 0, 255, 20⟩, ⟨false, 1, 9, 0, 255, 12⟩, ⟨false, 1, 10, 0, 255, 4⟩,
  ⟨false, 1, 11, 4, 255, 0⟩, ⟨true, 2, 11, 0, 15, 42⟩, ⟨false, 2, 12, 0, 255, 34⟩, ⟨false, 2, 13, 0, 255, 26⟩,
  ⟨false, 2, 14, 0, 255, 18⟩, ⟨false, 2, 15, 0, 255, 10⟩, ⟨false, 2, 16, 0, 255, 2⟩, ⟨false, 2, 17, 6, 255, 0⟩,
  ⟨true, 3, 17, 0, 63, 40⟩, ⟨false, 3, 18, 0, 255, 32⟩, ⟨false, 3, 19, 0, 255, 24⟩, ⟨false, 3, 20, 0, 255, 16⟩,
  ⟨false, 3, 21, 0, 255, 8⟩, ⟨false, 3, 22, 0, 255, 0⟩, ⟨true, 4, 23, 0, 255, 38⟩, ⟨false, 4, 24, 0, 255, 30⟩,
  ⟨false, 4, 25, 0, 255, 22⟩, ⟨false, 4, 26, 0, 255, 14⟩, ⟨false, 4, 27, 0, 255, 6⟩, ⟨false, 4, 28, 2, 255, 0⟩,
  ⟨true, 5, 28, 0, 3, 44⟩, ⟨false, 5, 29, 0, 255, 36⟩, ⟨false, 5, 30, 0, 255, 28⟩, ⟨false, 5, 31, 0, 255, 20⟩,
  ⟨false, 5, 32, 0, 255, 12⟩, ⟨false, 5, 33, 0, 255, 4⟩, ⟨false, 5, 34, 4, 255, 0⟩, ⟨true, 6, 34, 0, 15, 42⟩,
  ⟨false, 6, 35, 0, 255, 34⟩, ⟨false, 6, 36, 0, 255, 26⟩, ⟨false, 6, 37, 0, 255, 18⟩, ⟨false, 6, 38, 0, 255, 10⟩,
  ⟨false, 6, 39, 0, 255, 2⟩, ⟨false, 6, 40, 6, 255, 0⟩, ⟨true, 7, 40, 0, 63, 40⟩, ⟨false, 7, 41, 0, 255, 32⟩,
  ⟨false, 7, 42, 0, 255, 24⟩, ⟨false, 7, 43, 0, 255, 16⟩, ⟨false, 7, 44, 0, 255, 8⟩, ⟨false, 7, 45, 0, 255, 0⟩]

/-- `unpackBits47` bit_packing.go l.5108-5170 -/
def unpack47 : List Stmt := [
  ⟨true, 0, 0, 0, 255, 39⟩, ⟨false, 0, 1, 0, 255, 31⟩, ⟨false, 0, 2, 0, 255, 23⟩, ⟨false, 0, 3, 0, 255, 15⟩,
  ⟨false, 0, 4, 0, 255, 7⟩, ⟨false, 0, 5, 1, 255, 0⟩, ⟨true, 1, 5, 0, 1, 46⟩, ⟨false, 1, 6, 0, 255, 38⟩,
  ⟨false, 1, 7, 0, 255, 30⟩, ⟨false, 1, 8, 0, 255, 22⟩, ⟨false, 1, 9, 0, 255, 14⟩, ⟨false, 1, 10, 0, 255, 6⟩,
  ⟨false, 1, 11, 2, 255, 0⟩, ⟨true, 2, 11, 0, 3, 45⟩, ⟨false, 2, 12, 0, 255, 37⟩, ⟨false, 2, 13, 0, 255, 29⟩,
  ⟨false, 2, 14, 0, 255, 21⟩, ⟨false, 2, 15, 0, 255, 13⟩, ⟨false, 2, 16, 0, 255, 5⟩, ⟨false, 2, 17, 3, 255, 0⟩,
  ⟨true, 3, 17, 0, 7, 44⟩, ⟨false, 3, 18, 0, 255, 36⟩, ⟨false, 3, 19, 0, 255, 28⟩, ⟨false, 3, 20, 0, 255, 20⟩,
  ⟨false, 3, 21, 0, 255, 12⟩, ⟨false, 3, 22, 0, 255, 4⟩, ⟨false, 3, 23, 4, 255, 0⟩, ⟨true, 4, 23, 0, 15, 43⟩,
  ⟨false, 4, 24, 0, 255, 35⟩, ⟨false, 4, 25, 0, 255, 27⟩, ⟨false, 4, 26, 0, 255, 19⟩, ⟨false, 4, 27, 0, 255, 11⟩,
  ⟨false, 4, 28, 0, 255, 3⟩, ⟨false, 4, 29, 5, 255, 0⟩, ⟨true, 5, 29, 0, 31, 42⟩, ⟨false, 5, 30, 0, 255, 34⟩,
  ⟨false, 5, 31, 0, 255, 26⟩, ⟨false, 5, 32, 0, 255, 18⟩, ⟨false, 5, 33, 0, 255, 10⟩, ⟨false, 5, 34, 0, 255, 2⟩,
  ⟨false, 5, 35, 6, 255, 0⟩, ⟨true, 6, 35, 0, 63, 41⟩, ⟨false, 6, 36, 0, 255, 33⟩, ⟨false, 6, 37, 0, 255, 25⟩,
  ⟨false, 6, 38, 0, 255, 17⟩, ⟨false, 6, 39, 0, 255, 9⟩, ⟨false, 6, 40, 0, 255, 1⟩, ⟨false, 6, 41, 7, 255, 0⟩,
  ⟨true, 7, 41, 0, 127, 40⟩, ⟨false, 7, 42, 0, 255, 32⟩, ⟨false, 7, 43, 0, 255, 24⟩, ⟨false, 7, 44, 0, 255, 16⟩,
  ⟨false, 7, 45, 0, 255, 8⟩, ⟨false, 7, 46, 0, 255, 0⟩]

/-- `unpackBits48` bit_packing.go l.5172-5221 -/
def unpack48 : List Stmt := [
  ⟨true, 0, 0, 0, 255, 40⟩, ⟨false, 0, 1, 0, 255, 32⟩, ⟨false, 0, 2, 0, 255, 24⟩, ⟨false, 0, 3, 0, 255, 16⟩,
  ⟨false, 0, 4, 0, 255, 8⟩, ⟨false, 0, 5, 0, 255, 0⟩, ⟨true, 1, 6, 0, 255, 40⟩, ⟨false, 1, 7, 0, 255, 32⟩,
  ⟨false, 1, 8, 0, 255, 24⟩, ⟨false, 1, 9, 0, 255, 16⟩, ⟨false, 1, 10, 0, 255, 8⟩, ⟨false, 1, 11, 0, 255, 0⟩,
  ⟨true, 2, 12, 0, 255, 40⟩, ⟨false, 2, 13, 0, 255, 32⟩, ⟨false, 2, 14, 0, 255, 24⟩, ⟨false, 2, 15, 0, 255, 16⟩,
  ⟨false, 2, 16, 0, 255, 8⟩, ⟨false, 2, 17, 0, 255, 0⟩, ⟨true, 3, 18, 0, 255, 40⟩, ⟨false, 3, 19, 0, 255, 32⟩,
  ⟨false, 3, 20, 0, 255, 24⟩, ⟨false, 3, 21, 0, 255, 16⟩, ⟨false, 3, 22, 0, 255, 8⟩, ⟨false, 3, 23, 0, 255, 0⟩,
  ⟨true, 4, 24, 0, 255, 40⟩, ⟨false, 4, 25, 0, 255, 32⟩, ⟨false, 4, 26, 0, 255, 24⟩, ⟨false, 4, 27, 0, 255, 16⟩,
  ⟨false, 4, 28, 0, 255, 8⟩, ⟨false, 4, 29, 0, 255, 0⟩, ⟨true, 5, 30, 0, 255, 40⟩, ⟨false, 5, 31, 0, 255, 32⟩,
  ⟨false, 5, 32, 0, 255, 24⟩, ⟨false, 5, 33, 0, 255, 16⟩, ⟨false, 5, 34, 0, 255, 8⟩, ⟨false, 5, 35, 0, 255, 0⟩,
  ⟨true, 6, 36, 0, 255, 40⟩, ⟨false, 6, 37, 0, 255, 32⟩, ⟨false, 6, 38, 0, 255, 24⟩, ⟨false, 6, 39, 0, 255, 16⟩,
  ⟨false, 6, 40, 0, 255, 8⟩, ⟨false, 6, 41, 0, 255, 0⟩, ⟨true, 7, 42, 0, 255, 40⟩, ⟨false, 7, 43, 0, 255, 32⟩,
  ⟨false, 7, 44, 0, 255, 24⟩, ⟨false, 7, 45, 0, 255, 16⟩, ⟨false, 7, 46, 0, 255, 8⟩, ⟨false, 7, 47, 0, 255, 0⟩]

/-- `unpackBits49` bit_packing.go l.5223-5287 -/
def unpack49 : List Stmt := [
  ⟨true, 0, 0, 0, 255, 41⟩, ⟨false, 0, 1, 0, 255, 33⟩, ⟨false, 0, 2, 0, 255, 25⟩, ⟨false, 0, 3, 0, 255, 17⟩,
  ⟨false, 0, 4, 0, 255, 9⟩, ⟨false, 0, 5, 0, 255, 1⟩, ⟨false, 0, 6, 7, 255, 0⟩, ⟨true, 1, 6, 0, 127, 42⟩,
  ⟨false, 1, 7, 0, 255, 34⟩, ⟨false, 1, 8, 0, 255, 26⟩, ⟨false, 1, 9, 0, 255, 18⟩, ⟨false, 1, 10, 0, 255, 10⟩,
  ⟨false, 1, 11, 0, 255, 2⟩, ⟨false, 1, 12, 6, 255, 0⟩, ⟨true, 2, 12, 0, 63, 43⟩, ⟨false, 2, 13, 0, 255, 35⟩,
  ⟨false, 2, 14, 0, 255, 27⟩, ⟨false, 2, 15, 0, 255, 19⟩, ⟨false, 2, 16, 0, 255, 11⟩, ⟨false, 2, 17, 0, 255, 3⟩,
  ⟨false, 2, 18, 5, 255, 0⟩, ⟨true, 3, 18, 0, 31, 44⟩, ⟨false, 3, 19, 0, 255, 36⟩, ⟨false, 3, 20, 0, 255, 28⟩,
  ⟨false, 3, 21, 0, 255, 20⟩, ⟨false, 3, 22, 0, 255, 12⟩, ⟨false, 3, 23, 0, 255, 4⟩, ⟨false, 3, 24, 4, 255, 0⟩,
  ⟨true, 4, 24, 0, 15, 45⟩, ⟨false, 4, 25, 0, 255, 37⟩, ⟨false, 4, 26, 0, 255, 29⟩, ⟨false, 4, 27, 0, 255, 21⟩,
  ⟨false, 4, 28, 0, 255, 13⟩, ⟨false, 4, 29, 0, 255, 5⟩, ⟨false, 4, 30, 3, 255, 0⟩, ⟨true, 5, 30, 0, 7, 46⟩,
  ⟨false, 5, 31, 0, 255, 38⟩, ⟨false, 5, 32, 0, 255, 30⟩, ⟨false, 5, 33, 0, 255, 22⟩, ⟨false, 5, 34, 0, 255, 14⟩,
  ⟨false, 5, 35, 0, 255, 6⟩, ⟨false, 5, 36, 2, 255, 0⟩, ⟨true, 6, 36, 0, 3, 47⟩, ⟨false, 6, 37, 0, 255, 39⟩,
  ⟨false, 6, 38, 0, 255, 31⟩, ⟨false, 6, 39, 0, 255, 23⟩, ⟨false, 6, 40, 0, 255, 15⟩, ⟨false, 6, 41, 0, 255, 7⟩,
  ⟨false, 6, 42, 1, 255, 0⟩, ⟨true, 7, 42, 0, 1, 48⟩, ⟨false, 7, 43, 0, 255, 40⟩, ⟨false, 7, 44, 0, 255, 32⟩,
  ⟨false, 7, 45, 0, 255, 24⟩, ⟨false, 7, 46, 0, 255, 16⟩, ⟨false, 7, 47, 0, 255, 8⟩, ⟨false, 7, 48, 0, 255, 0⟩]

/-- `unpackBits50` bit_packing.go l.5289-5353 -/
def unpack50 : List Stmt := [
  ⟨true, 0, 0, 0, 255, 42⟩, ⟨false, 0, 1, 0, 255, 34⟩, ⟨false, 0, 2, 0, 255, 26⟩, ⟨false, 0, 3, 0, 255, 18⟩,
  ⟨false, 0, 4, 0, 255, 10⟩, ⟨false, 0, 5, 0, 255, 2⟩, ⟨false, 0, 6, 6, 255, 0⟩, ⟨true, 1, 6, 0, 63, 44⟩,
  ⟨false, 1, 7, 0, 255, 36⟩, ⟨false, 1, 8, 0, 255, 28⟩, ⟨false, 1, 9, 0, 255, 20⟩, ⟨false, 1, 10, 0, 255, 12⟩,
  ⟨false, 1, 11, 0, 255, 4⟩, ⟨false, 1, 12, 4, 255, 0⟩, ⟨true, 2, 12, 0, 15, 46⟩, ⟨false, 2, 13, 0, 255, 38⟩,
  ⟨false, 2, 14, 0, 255, 30⟩, ⟨false, 2, 15, 0, 255, 22⟩, ⟨false, 2, 16, 0, 255, 14⟩, ⟨false, 2, 17, 0, 255, 6⟩,
  ⟨false, 2, 18, 2, 255, 0⟩, ⟨true, 3, 18, 0, 3, 48⟩, ⟨false, 3, 19, 0, 255, 40⟩, ⟨false, 3, 20, 0, 255, 32⟩,
  ⟨false, 3, 21, 0, 255, 24⟩, ⟨false, 3, 22, 0, 255, 16⟩, ⟨false, 3, 23, 0, 255, 8⟩, ⟨false, 3, 24, 0, 255, 0⟩,
  ⟨true, 4, 25, 0, 255, 42⟩, ⟨false, 4, 26, 0, 255, 34⟩, ⟨false, 4, 27, 0, 255, 26⟩, ⟨false, 4, 28, 0, 255, 18⟩,
  ⟨false, 4, 29, 0, 255, 10⟩, ⟨false, 4, 30, 0, 255, 2⟩, ⟨false, 4, 31, 6, 255, 0⟩, ⟨true, 5, 31, 0, 63, 44⟩,
  ⟨false, 5, 32, 0, 255, 36⟩, ⟨false, 5, 33, 0, 255, 28⟩, ⟨false, 5, 34, 0, 255, 20⟩, ⟨false, 5, 35, 0, 255, 12⟩,
  ⟨false, 5, 36, 0, 255, 4⟩, ⟨false, 5, 37, 4, 255, 0⟩, ⟨true, 6, 37, 0, 15, 46⟩, ⟨false, 6, 38, 0, 255, 38⟩,
  ⟨false, 6, 39, 0, 255, 30⟩, ⟨false, 6, 40, 0, 255, 22⟩, ⟨false, 6, 41, 0, 255, 14⟩, ⟨false, 6, 42, 0, 255, 6⟩,
  ⟨false, 6, 43, 2, 255, 0⟩, ⟨true, 7, 43, 0, 3, 48⟩, ⟨false, 7, 44, 0, 255, 40⟩, ⟨false, 7, 45, 0, 255, 32⟩,
  ⟨false, 7, 46, 0, 255, 24⟩, ⟨false, 7, 47, 0, 255, 16⟩, ⟨false, 7, 48, 0, 255, 8⟩, ⟨false, 7, 49, 0, 255, 0⟩]

/-- `unpackBits51` bit_packing.go l.5355-5421 -/
def unpack51 : List Stmt := [
  ⟨true, 0, 0, 0, 255, 43⟩, ⟨false, 0, 1, 0, 255, 35⟩, ⟨false, 0, 2, 0, 255, 27⟩, ⟨false, 0, 3, 0, 255, 19⟩,
  ⟨false, 0, 4, 0, 255, 11⟩, ⟨false, 0, 5, 0, 255, 3⟩, ⟨false, 0, 6, 5, 255, 0⟩, ⟨true, 1, 6, 0, 31, 46⟩,
  ⟨false, 1, 7, 0, 255, 38⟩, ⟨false, 1, 8, 0, 255, 30⟩, ⟨false, 1, 9, 0, 255, 22⟩, ⟨false, 1, 10, 0, 255, 14⟩,
  ⟨false, 1, 11, 0, 255, 6⟩, ⟨false, 1, 12, 2, 255, 0⟩, ⟨true, 2, 12, 0, 3, 49⟩, ⟨false, 2, 13, 0, 255, 41⟩,
  ⟨false, 2, 14, 0, 255, 33⟩, ⟨false, 2, 15, 0, 255, 25⟩, ⟨false, 2, 16, 0, 255, 17⟩, ⟨false, 2, 17, 0, 255, 9⟩,
  ⟨false, 2, 18, 0, 255, 1⟩, ⟨false, 2, 19, 7, 255, 0⟩, ⟨true, 3, 19, 0, 127, 44⟩, ⟨false, 3, 20, 0, 255, 36⟩,
  ⟨false, 3, 21, 0, 255, 28⟩, ⟨false, 3, 22, 0, 255, 20⟩, ⟨false, 3, 23, 0, 255, 12⟩, ⟨false, 3, 24, 0, 255, 4⟩,
  ⟨false, 3, 25, 4, 255, 0⟩, ⟨true, 4, 25, 0, 15, 47⟩, ⟨false, 4, 26, 0, 255, 39⟩, ⟨false, 4, 27, 0, 255, 31⟩,
  ⟨false, 4, 28, 0, 255, 23⟩, ⟨false, 4, 29, 0, 255, 15⟩, ⟨false, 4, 30, 0, 255, 7⟩, ⟨false, 4, 31, 1, 255, 0⟩,
  ⟨true, 5, 31, 0, 1, 50⟩, ⟨false, 5, 32, 0, 255, 42⟩, ⟨false, 5, 33, 0, 255, 34⟩, ⟨false, 5, 34, 0, 255, 26⟩,
  ⟨false, 5, 35, 0, 255, 18⟩, ⟨false, 5, 36, 0, 255, 10⟩, ⟨false, 5, 37, 0, 255, 2⟩, ⟨false, 5, 38, 6, 255, 0⟩,
  ⟨true, 6, 38, 0, 63, 45⟩, ⟨false, 6, 39, 0, 255, 37⟩, ⟨false, 6, 40, 0, 255, 29⟩, ⟨false, 6, 41, 0, 255, 21⟩,
  ⟨false, 6, 42, 0, 255, 13⟩, ⟨false, 6, 43, 0, 255, 5⟩, ⟨false, 6, 44, 3, 255, 0⟩, ⟨true, 7, 44, 0, 7, 48⟩,
  ⟨false, 7, 45, 0, 255, 40⟩, ⟨false, 7, 46, 0, 255, 32⟩, ⟨false, 7, 47, 0, 255, 24⟩, ⟨false, 7, 48, 0, 255, 16⟩,
  ⟨false, 7, 49, 0, 255, 8⟩, ⟨false, 7, 50, 0, 255, 0⟩]

/-- `unpackBits52` bit_packing.go l.5423-5487 -/
def unpack52 : List Stmt := [
  ⟨true, 0, 0, 0, 255, 44⟩, ⟨false, 0, 1, 0, 255, 36⟩, ⟨false, 0, 2, 0, 255, 28⟩, ⟨false, 0, 3, 0, 255, 20⟩,
  ⟨false, 0, 4, 0, 255, 12⟩, ⟨false, 0, 5, 0, 255, 4⟩, ⟨false, 0, 6, 4, 255, 0⟩, ⟨true, 1, 6, 0, 15, 48⟩,
  ⟨false, 1, 7, 0, 255, 40⟩, ⟨false, 1, 8, 0, 255, 32⟩, ⟨false, 1, 9, 0, 255, 24⟩, ⟨false, 1, 10, 0, 255, 16⟩,
  ⟨false, 1, 11, 0, 255, 8⟩, ⟨false, 1, 12, 0, 255, 0⟩, ⟨true, 2, 13, 0, 255, 44⟩, ⟨false, 2, 14, 0, 255, 36⟩,
  ⟨false, 2, 15, 0, 255, 28⟩, ⟨false, 2, 16, 0, 255, 20⟩, ⟨false, 2, 17, 0, 255, 12⟩, ⟨false, 2, 18, 0, 255, 4⟩,
  ⟨false, 2, 19, 4, 255, 0⟩, ⟨true, 3, 19, 0, 15, 48⟩, ⟨false, 3, 20, 0, 255, 40⟩, ⟨false, 3, 21, 0, 255, 32⟩,
  ⟨false, 3, 22, 0, 255, 24⟩, ⟨false, 3, 23, 0, 255, 16⟩, ⟨false, 3, 24, 0, 255, 8⟩, ⟨false, 3, 25, 0, 255, 0⟩,
  ⟨true, 4, 26, 0, 255, 44⟩, ⟨false, 4, 27, 0, 255, 36⟩, ⟨false, 4, 28, 0, 255, 28⟩, ⟨false, 4, 29, 0, 255, 20⟩,
  ⟨false, 4, 30, 0, 255, 12⟩, ⟨false, 4, 31, 0, 255, 4⟩, ⟨false, 4, 32, 4, 255, 0⟩, ⟨true, 5, 32, 0, 15, 48⟩,
  ⟨false, 5, 33, 0, 255, 40⟩, ⟨false, 5, 34, 0, 255, 32⟩, ⟨false, 5, 35, 0, 255, 24⟩, ⟨false, 5, 36, 0, 255, 16⟩,
  ⟨false, 5, 37, 0, 255, 8⟩, ⟨false, 5, 38, 0, 255, 0⟩, ⟨true, 6, 39, 0, 255, 44⟩, ⟨false, 6, 40, 0, 255, 36⟩,
  ⟨false, 6, 41, 0, 255, 28⟩, ⟨false, 6, 42, 0, 255, 20⟩, ⟨false, 6, 43, 0, 255, 12⟩, ⟨false, 6, 44, 0, 255, 4⟩,
  ⟨false, 6, 45, 4, 255, 0⟩, ⟨true, 7, 45, 0, 15, 48⟩, ⟨false, 7, 46, 0, 255, 40⟩, ⟨false, 7, 47, 0, 255, 32⟩,
  ⟨false, 7, 48, 0, 255, 24⟩, ⟨false, 7, 49, 0, 255, 16⟩, ⟨false, 7, 50, 0, 255, 8⟩, ⟨false, 7, 51, 0, 255, 0⟩]

/-- `unpackBits53` bit_packing.go l.5489-5557 -/
def unpack53 : List Stmt := [
  ⟨true, 0, 0, 0, 255, 45⟩, ⟨false, 0, 1, 0, 255, 37⟩, ⟨false, 0, 2, 0, 255, 29⟩, ⟨false, 0, 3, 0, 255, 21⟩,
  ⟨false, 0, 4, 0, 255, 13⟩, ⟨false, 0, 5, 0, 255, 5⟩, ⟨false, 0, 6, 3, 255, 0⟩, ⟨true, 1, 6, 0, 7, 50⟩,
  ⟨false, 1, 7, 0, 255, 42⟩, ⟨false, 1, 8, 0, 255, 34⟩, ⟨false, 1, 9, 0, 255, 26⟩, ⟨false, 1, 10, 0, 255, 18⟩,
  ⟨false, 1, 11, 0, 255, 10⟩, ⟨false, 1, 12, 0, 255, 2⟩, ⟨false, 1, 13, 6, 255, 0⟩, ⟨true, 2, 13, 0, 63, 47⟩,
  ⟨false, 2, 14, 0, 255, 39⟩, ⟨false, 2, 15, 0, 255, 31⟩, ⟨false, 2, 16, 0, 255, 23⟩, ⟨false, 2, 17, 0, 255, 15⟩,
  ⟨false, 2, 18, 0, 255, 7⟩, ⟨false, 2, 19, 1, 255, 0⟩, ⟨true, 3, 19, 0, 1, 52⟩, ⟨false, 3, 20, 0, 255, 44⟩,
  ⟨false, 3, 21, 0, 255, 36⟩, ⟨false, 3, 22, 0, 255, 28⟩, ⟨false, 3, 23, 0, 255, 20⟩, ⟨false, 3, 24, 0, 255, 12⟩,
  ⟨false, 3, 25, 0, 255, 4⟩, ⟨false, 3, 26, 4, 255, 0⟩, ⟨true, 4, 26, 0, 15, 49⟩, ⟨false, 4, 27, 0, 255, 41⟩,
  ⟨false, 4, 28, 0, 255, 33⟩, ⟨false, 4, 29, 0, 255, 25⟩, ⟨false, 4, 30, 0, 255, 17⟩, ⟨false, 4, 31, 0, 255, 9⟩,
  ⟨false, 4, 32, 0, 255, 1⟩, ⟨false, 4, 33, 7, 255, 0⟩, ⟨true, 5, 33, 0, 127, 46⟩, ⟨false, 5, 34, 0, 255, 38⟩,
  ⟨false, 5, 35, 0, 255, 30⟩, ⟨false, 5, 36, 0, 255, 22⟩, ⟨false, 5, 37, 0, 255, 14⟩, ⟨false, 5, 38, 0, 255, 6⟩,
  ⟨false, 5, 39, 2, 255, 0⟩, ⟨true, 6, 39, 0, 3, 51⟩, ⟨false, 6, 40, 0, 255, 43⟩, ⟨false, 6, 41, 0, 255, 35⟩,
  ⟨false, 6, 42, 0, 255, 27⟩, ⟨false, 6, 43, 0, 255, 19⟩, ⟨false, 6, 44, 0, 255, 11⟩, ⟨false, 6, 45, 0, 255, 3⟩,
  ⟨false, 6, 46, 5, 255, 0⟩, ⟨true, 7, 46, 0, 31, 48⟩, ⟨false, 7, 47, 0, 255, 40⟩, ⟨false, 7, 48, 0, 255, 32⟩,
  ⟨false, 7, 49, 0, 255, 24⟩, ⟨false, 7, 50, 0, 255, 16⟩, ⟨false, 7, 51, 0, 255, 8⟩, ⟨false, 7, 52, 0, 255, 0⟩]

/-- `unpackBits54` bit_packing.go l.5559-5627 -/
def unpack54 : List Stmt := [
  ⟨true, 0, 0, 0, 255, 46⟩, ⟨false, 0, 1, 0, 255, 38⟩, ⟨false, 0, 2, 0, 255, 30⟩, ⟨false, 0, 3, 0, 255, 22⟩,
  ⟨false, 0, 4, 0, 255, 14⟩, ⟨false, 0, 5, 0, 255, 6⟩, ⟨false, 0, 6, 2, 255, 0⟩, ⟨true, 1, 6, 0, 3, 52⟩,
  ⟨false, 1, 7, 0, 255, 44⟩, ⟨false, 1, 8, 0, 255, 36⟩, ⟨false, 1, 9, 0, 255, 28⟩, ⟨false, 1, 10, 0, 255, 20⟩,
  ⟨false, 1, 11, 0, 255, 12⟩, ⟨false, 1, 12, 0, 255, 4⟩, ⟨false, 1, 13, 4, 255, 0⟩, ⟨true, 2, 13, 0, 15, 50⟩,
  ⟨false, 2, 14, 0, 255, 42⟩, ⟨false, 2, 15, 0, 255, 34⟩, ⟨false, 2, 16, 0, 255, 26⟩, ⟨false, 2, 17, 0, 255, 18⟩,
  ⟨false, 2, 18, 0, 255, 10⟩, ⟨false, 2, 19, 0, 255, 2⟩, ⟨false, 2, 20, 6, 255, 0⟩, ⟨true, 3, 20, 0, 63, 48⟩,
  ⟨false, 3, 21, 0, 255, 40⟩, ⟨false, 3, 22, 0, 255, 32⟩, ⟨false, 3, 23, 0, 255, 24⟩, ⟨false, 3, 24, 0, 255, 16⟩,
  ⟨false, 3, 25, 0, 255, 8⟩, ⟨false, 3, 26, 0, 255, 0⟩, ⟨true, 4, 27, 0, 255, 46⟩, ⟨false, 4, 28, 0, 255, 38⟩,
  ⟨false, 4, 29, 0, 255, 30⟩, ⟨false, 4, 30, 0, 255, 22⟩, ⟨false, 4, 31, 0, 255, 14⟩, ⟨false, 4, 32, 0, 255, 6⟩,
  ⟨false, 4, 33, 2, 255, 0⟩, ⟨true, 5, 33, 0, 3, 52⟩, ⟨false, 5, 34, 0, 255, 44⟩, ⟨false, 5, 35, 0, 255, 36⟩,
  ⟨false, 5, 36, 0, 255, 28⟩, ⟨false, 5, 37, 0, 255, 20⟩, ⟨false, 5, 38, 0, 255, 12⟩, ⟨false, 5, 39, 0, 255, 4⟩,
  ⟨false, 5, 40, 4, 255, 0⟩, ⟨true, 6, 40, 0, 15, 50⟩, ⟨false, 6, 41, 0, 255, 42⟩, ⟨false, 6, 42, 0, 255, 34⟩,
  ⟨false, 6, 43, 0, 255, 26⟩, ⟨false, 6, 44, 0, 255, 18⟩, ⟨false, 6, 45, 0, 255, 10⟩, ⟨false, 6, 46, 0, 255, 2⟩,
  ⟨false, 6, 47, 6, 255, 0⟩, ⟨true, 7, 47, 0, 63, 48⟩, ⟨false, 7, 48, 0, 255, 40⟩, ⟨false, 7, 49, 0, 255, 32⟩,
  ⟨false, 7, 50, 0, 255, 24⟩, ⟨false, 7, 51, 0, 255, 16⟩, ⟨false, 7, 52, 0, 255, 8⟩, ⟨false, 7, 53, 0, 255, 0⟩]

/-- `unpackBits55` bit_packing.go l.5629-5699 -/
def unpack55 : List Stmt := [
  ⟨true, 0, 0, 0, 255, 47⟩, ⟨false, 0, 1, 0, 255, 39⟩, ⟨false, 0, 2, 0, 255, 31⟩, ⟨false, 0, 3, 0, 255, 23⟩,
  ⟨false, 0, 4, 0, 255, 15⟩, ⟨false, 0, 5, 0, 255, 7⟩, ⟨false, 0, 6, 1, 255, 0⟩, ⟨true, 1, 6, 0, 1, 54⟩,
  ⟨false, 1, 7, 0, 255, 46⟩, ⟨false, 1, 8, 0, 255, 38⟩, ⟨false, 1, 9, 0, 255, 30⟩, ⟨false, 1, 10, 0, 255, 22⟩,
  ⟨false, 1, 11, 0, 255, 14⟩, ⟨false, 1, 12, 0, 255, 6⟩, ⟨false, 1, 13, 2, 255, 0⟩, ⟨true, 2, 13, 0, 3, 53⟩,
  ⟨false, 2, 14, 0, 255, 45⟩, ⟨false, 2, 15, 0, 255, 37⟩, ⟨false, 2, 16, 0, 255, 29⟩, ⟨false, 2, 17, 0, 255, 21⟩,
  ⟨false, 2, 18, 0, 255, 13⟩, ⟨false, 2, 19, 0, 255, 5⟩, ⟨false, 2, 20, 3, 255, 0⟩, ⟨true, 3, 20, 0, 7, 52⟩,
  ⟨false, 3, 21, 0, 255, 44⟩, ⟨false, 3, 22, 0, 255, 36⟩, ⟨false, 3, 23, 0, 255, 28⟩, ⟨false, 3, 24, 0, 255, 20⟩,
  ⟨false, 3, 25, 0, 255, 12⟩, ⟨false, 3, 26, 0, 255, 4⟩, ⟨false, 3, 27, 4, 255, 0⟩, ⟨true, 4, 27, 0, 15, 51⟩,
  ⟨false, 4, 28, 0, 255, 43⟩, ⟨false, 4, 29, 0, 255, 35⟩, ⟨false, 4, 30, 0, 255, 27⟩, ⟨false, 4, 31, 0, 255, 19⟩,
  ⟨false, 4, 32, 0, 255, 11⟩, ⟨false, 4, 33, 0, 255, 3⟩, ⟨false, 4, 34, 5, 255, 0⟩, ⟨true, 5, 34, 0, 31, 50⟩,
  ⟨false, 5, 35, 0, 255, 42⟩, ⟨false, 5, 36, 0, 255, 34⟩, ⟨false, 5, 37, 0, 255, 26⟩, ⟨false, 5, 38, 0, 255, 18⟩,
  ⟨false, 5, 39, 0, 255, 10⟩, ⟨false, 5, 40, 0, 255, 2⟩, ⟨false, 5, 41, 6, 255, 0⟩, ⟨true, 6, 41, 0, 63, 49⟩,
  ⟨false, 6, 42, 0, 255, 41⟩, ⟨false, 6, 43, 0, 255, 33⟩, ⟨false, 6, 44, 0, 255, 25⟩, ⟨false, 6, 45, 0, 255, 17⟩,
  ⟨false, 6, 46, 0, 255, 9⟩, ⟨false, 6, 47, 0, 255, 1⟩, ⟨false, 6, 48, 7, 255, 0⟩, ⟨true, 7, 48, 0, 127, 48⟩,
  ⟨false, 7, 49, 0, 255, 40⟩, ⟨false, 7, 50, 0, 255, 32⟩, ⟨false, 7, 51, 0, 255, 24⟩, ⟨false, 7, 52, 0, 255, 16⟩,
  ⟨false, 7, 53, 0, 255, 8⟩, ⟨false, 7, 54, 0, 255, 0⟩]

/-- `unpackBits56` bit_packing.go l.5701-5758 -/
def unpack56 : List Stmt := [
  ⟨true, 0, 0, 0, 255, 48⟩, ⟨false, 0, 1, 0, 255, 40⟩, ⟨false, 0, 2, 0, 255, 32⟩, ⟨false, 0, 3, 0, 255, 24⟩,
  ⟨false, 0, 4, 0, 255, 16⟩, ⟨false, 0, 5, 0, 255, 8⟩, ⟨false, 0, 6, 0, 255, 0⟩, ⟨true, 1, 7, 0, 255, 48⟩,
  ⟨false, 1, 8, 0, 255, 40⟩, ⟨false, 1, 9, 0, 255, 32⟩, ⟨false, 1, 10, 0, 255, 24⟩, ⟨false, 1, 11, 0, 255, 16⟩,
  ⟨false, 1, 12, 0, 255, 8⟩, ⟨false, 1, 13, 0, 255, 0⟩, ⟨true, 2, 14, 0, 255, 48⟩, ⟨false, 2, 15, 0, 255, 40⟩,
  ⟨false, 2, 16, 0, 255, 32⟩, ⟨false, 2, 17, 0, 255, 24⟩, ⟨false, 2, 18, 0, 255, 16⟩, ⟨false, 2, 19, 0, 255, 8⟩,
  ⟨false, 2, 20, 0, 255, 0⟩, ⟨true, 3, 21, 0, 255, 48⟩, ⟨false, 3, 22, 0, 255, 40⟩, ⟨false, 3, 23, 0, 255, 32⟩,
  ⟨false, 3, 24, 0, 255, 24⟩, ⟨false, 3, 25, 0, 255, 16⟩, ⟨false, 3, 26, 0, 255, 8⟩, ⟨false, 3, 27, 0, 255, 0⟩,
  ⟨true, 4, 28, 0, 255, 48⟩, ⟨false, 4, 29, 0, 255, 40⟩, ⟨false, 4, 30, 0, 255, 32⟩, ⟨false, 4, 31, 0, 255, 24⟩,
  ⟨false, 4, 32, 0, 255, 16⟩, ⟨false, 4, 33, 0, 255, 8⟩, ⟨false, 4, 34, 0, 255, 0⟩, ⟨true, 5, 35, 0, 255, 48⟩,
  ⟨false, 5, 36, 0, 255, 40⟩, ⟨false, 5, 37, 0, 255, 32⟩, ⟨false, 5, 38, 0, 255, 24⟩, ⟨false, 5, 39, 0, 255, 16⟩,
  ⟨false, 5, 40, 0, 255, 8⟩, ⟨false, 5, 41, 0, 255, 0⟩, ⟨true, 6, 42, 0, 255, 48⟩, ⟨false, 6, 43, 0, 255, 40⟩,
  ⟨false, 6, 44, 0, 255, 32⟩, ⟨false, 6, 45, 0, 255, 24⟩, ⟨false, 6, 46, 0, 255, 16⟩, ⟨false, 6, 47, 0, 255, 8⟩,
  ⟨false, 6, 48, 0, 255, 0⟩, ⟨true, 7, 49, 0, 255, 48⟩, ⟨false, 7, 50, 0, 255, 40⟩, ⟨false, 7, 51, 0, 255, 32⟩,
  ⟨false, 7, 52, 0, 255, 24⟩, ⟨false, 7, 53, 0, 255, 16⟩, ⟨false, 7, 54, 0, 255, 8⟩, ⟨false, 7, 55, 0, 255, 0⟩]

/-- `unpackBits57` bit_packing.go l.5760-5832 -/
def unpack57 : List Stmt := [
  ⟨true, 0, 0, 0, 255, 49⟩, ⟨false, 0, 1, 0, 255, 41⟩, ⟨false, 0, 2, 0, 255, 33⟩, ⟨false, 0, 3, 0, 255, 25⟩,
  ⟨false, 0, 4, 0, 255, 17⟩, ⟨false, 0, 5, 0, 255, 9⟩, ⟨false, 0, 6, 0, 255, 1⟩, ⟨false, 0, 7, 7, 255, 0⟩,
  ⟨true, 1, 7, 0, 127, 50⟩, ⟨false, 1, 8, 0, 255, 42⟩, ⟨false, 1, 9, 0, 255, 34⟩, ⟨false, 1, 10, 0, 255, 26⟩,
  ⟨false, 1, 11, 0, 255, 18⟩, ⟨false, 1, 12, 0, 255, 10⟩, ⟨false, 1, 13, 0, 255, 2⟩, ⟨false, 1, 14, 6, 255, 0⟩,
  ⟨true, 2, 14, 0, 63, 51⟩, ⟨false, 2, 15, 0, 255, 43⟩, ⟨false, 2, 16, 0, 255, 35⟩, ⟨false, 2, 17, 0, 255, 27⟩,
  ⟨false, 2, 18, 0, 255, 19⟩, ⟨false, 2, 19, 0, 255, 11⟩, ⟨false, 2, 20, 0, 255, 3⟩, ⟨false, 2, 21, 5, 255, 0⟩,
  ⟨true, 3, 21, 0, 31, 52⟩, ⟨false, 3, 22, 0, 255, 44⟩, ⟨false, 3, 23, 0, 255, 36⟩, ⟨false, 3, 24, 0, 255, 28⟩,
  ⟨false, 3, 25, 0, 255, 20⟩, ⟨false, 3, 26, 0, 255, 12⟩, ⟨false, 3, 27, 0, 255, 4⟩, ⟨false, 3, 28, 4, 255, 0⟩,
  ⟨true, 4, 28, 0, 15, 53⟩, ⟨false, 4, 29, 0, 255, 45⟩, ⟨false, 4, 30, 0, 255, 37⟩, ⟨false, 4, 31, 0, 255, 29⟩,
  ⟨false, 4, 32, 0, 255, 21⟩, ⟨false, 4, 33, 0, 255, 13⟩, ⟨false, 4, 34, 0, 255, 5⟩, ⟨false, 4, 35, 3, 255, 0⟩,
  ⟨true, 5, 35, 0, 7, 54⟩, ⟨false, 5, 36, 0, 255, 46⟩, ⟨false, 5, 37, 0, 255, 38⟩, ⟨false, 5, 38, 0, 255, 30⟩,
  ⟨false, 5, 39, 0, 255, 22⟩, ⟨false, 5, 40, 0, 255, 14⟩, ⟨false, 5, 41, 0, 255, 6⟩, ⟨false, 5, 42, 2, 255, 0⟩,
  ⟨true, 6, 42, 0, 3, 55⟩, ⟨false, 6, 43, 0, 255, 47⟩, ⟨false, 6, 44, 0, 255, 39⟩, ⟨false, 6, 45, 0, 255, 31⟩,
  ⟨false, 6, 46, 0, 255, 23⟩, ⟨false, 6, 47, 0, 255, 15⟩, ⟨false, 6, 48, 0, 255, 7⟩, ⟨false, 6, 49, 1, 255, 0⟩,
  ⟨true, 7, 49, 0, 1, 56⟩, ⟨false, 7, 50, 0, 255, 48⟩, ⟨false, 7, 51, 0, 255, 40⟩, ⟨false, 7, 52, 0, 255, 32⟩,
  ⟨false, 7, 53, 0, 255, 24⟩, ⟨false, 7, 54, 0, 255, 16⟩, ⟨false, 7, 55, 0, 255, 8⟩, ⟨false, 7, 56, 0, 255, 0⟩]

/-- `unpackBits58` bit_packing.go l.5834-5906 -/
def unpack58 : List Stmt := [
  ⟨true, 0, 0, 0, 255, 50⟩, ⟨false, 0, 1, 0, 255, 42⟩, ⟨false, 0, 2, 0, 255, 34⟩, ⟨false, 0, 3, 0, 255, 26⟩,
  ⟨false, 0, 4, 0, 255, 18⟩, ⟨false, 0, 5, 0, 255, 10⟩, ⟨false, 0, 6, 0, 255, 2⟩, ⟨false, 0, 7, 6, 255, 0⟩,
  ⟨true, 1, 7, 0, 63, 52⟩, ⟨false, 1, 8, 0, 255, 44⟩, ⟨false, 1, 9, 0, 255, 36⟩, ⟨false, 1, 10, 0, 255, 28⟩,
  ⟨false, 1, 11, 0, 255, 20⟩, ⟨false, 1, 12, 0, 255, 12⟩, ⟨false, 1, 13, 0, 255, 4⟩, ⟨false, 1, 14, 4, 255, 0⟩,
  ⟨true, 2, 14, 0, 15, 54⟩, ⟨false, 2, 15, 0, 255, 46⟩, ⟨false, 2, 16, 0, 255, 38⟩, ⟨false, 2, 17, 0, 255, 30⟩,
  ⟨false, 2, 18, 0, 255, 22⟩, ⟨false, 2, 19, 0, 255, 14⟩, ⟨false, 2, 20, 0, 255, 6⟩, ⟨false, 2, 21, 2, 255, 0⟩,
  ⟨true, 3, 21, 0, 3, 56⟩, ⟨false, 3, 22, 0, 255, 48⟩, ⟨false, 3, 23, 0, 255, 40⟩, ⟨false, 3, 24, 0, 255, 32⟩,
  ⟨false, 3, 25, 0, 255, 24⟩, ⟨false, 3, 26, 0, 255, 16⟩, ⟨false, 3, 27, 0, 255, 8⟩, ⟨false, 3, 28, 0, 255, 0⟩,
  ⟨true, 4, 29, 0, 255, 50⟩, ⟨false, 4, 30, 0, 255, 42⟩, ⟨false, 4, 31, 0, 255, 34⟩, ⟨false, 4, 32, 0, 255, 26⟩,
  ⟨false, 4, 33, 0, 255, 18⟩, ⟨false, 4, 34, 0, 255, 10⟩, ⟨false, 4, 35, 0, 255, 2⟩, ⟨false, 4, 36, 6, 255, 0⟩,
  ⟨true, 5, 36, 0, 63, 52⟩, ⟨false, 5, 37, 0, 255, 44⟩, ⟨false, 5, 38, 0, 255, 36⟩, ⟨false, 5, 39, 0, 255, 28⟩,
  ⟨false, 5, 40, 0, 255, 20⟩, ⟨false, 5, 41, 0, 255, 12⟩, ⟨false, 5, 42, 0, 255, 4⟩, ⟨false, 5, 43, 4, 255, 0⟩,
  ⟨true, 6, 43, 0, 15, 54⟩, ⟨false, 6, 44, 0, 255, 46⟩, ⟨false, 6, 45, 0, 255, 38⟩, ⟨false, 6, 46, 0, 255, 30⟩,
  ⟨false, 6, 47, 0, 255, 22⟩, ⟨false, 6, 48, 0, 255, 14⟩, ⟨false, 6, 49, 0, 255, 6⟩, ⟨false, 6, 50, 2, 255, 0⟩,
  ⟨true, 7, 50, 0, 3, 56⟩, ⟨false, 7, 51, 0, 255, 48⟩, ⟨false, 7, 52, 0, 255, 40⟩, ⟨false, 7, 53, 0, 255, 32⟩,
  ⟨false, 7, 54, 0, 255, 24⟩, ⟨false, 7, 55, 0, 255, 16⟩, ⟨false, 7, 56, 0, 255, 8⟩, ⟨false, 7, 57, 0, 255, 0⟩]

/-- `unpackBits59` bit_packing.go l.5908-5982 -/
def unpack59 : List Stmt := [
  ⟨true, 0, 0, 0, 255, 51⟩, ⟨false, 0, 1, 0, 255, 43⟩, ⟨false, 0, 2, 0, 255, 35⟩, ⟨false, 0, 3, 0, 255, 27⟩,
  ⟨false, 0, 4, 0, 255, 19⟩, ⟨false, 0, 5, 0, 255, 11⟩, ⟨false, 0, 6, 0, 255, 3⟩, ⟨false, 0, 7, 5, 255, 0⟩,
  ⟨true, 1, 7, 0, 31, 54⟩, ⟨false, 1, 8, 0, 255, 46⟩, ⟨false, 1, 9, 0, 255, 38⟩, ⟨false, 1, 10, 0, 255, 30⟩,
  ⟨false, 1, 11, 0, 255, 22⟩, ⟨false, 1, 12, 0, 255, 14⟩, ⟨false, 1, 13, 0, 255, 6⟩, ⟨false, 1, 14, 2, 255, 0⟩,
  ⟨true, 2, 14, 0, 3, 57⟩, ⟨false, 2, 15, 0, 255, 49⟩, ⟨false, 2, 16, 0, 255, 41⟩, ⟨false, 2, 17, 0, 255, 33⟩,
  ⟨false, 2, 18, 0, 255, 25⟩, ⟨false, 2, 19, 0, 255, 17⟩, ⟨false, 2, 20, 0, 255, 9⟩, ⟨false, 2, 21, 0, 255, 1⟩,
  ⟨false, 2, 22, 7, 255, 0⟩, ⟨true, 3, 22, 0, 127, 52⟩, ⟨false, 3, 23, 0, 255, 44⟩, ⟨false, 3, 24, 0, 255, 36⟩,
  ⟨false, 3, 25, 0, 255, 28⟩, ⟨false, 3, 26, 0, 255, 20⟩, ⟨false, 3, 27, 0, 255, 12⟩, ⟨false, 3, 28, 0, 255, 4⟩,
  ⟨false, 3, 29, 4, 255, 0⟩, ⟨true, 4, 29, 0, 15, 55⟩, ⟨false, 4, 30, 0, 255, 47⟩, ⟨false, 4, 31, 0, 255, 39⟩,
  ⟨false, 4, 32, 0, 255, 31⟩, ⟨false, 4, 33, 0, 255, 23⟩, ⟨false, 4, 34, 0, 255, 15⟩, ⟨false, 4, 35, 0, 255, 7⟩,
  ⟨false, 4, 36, 1, 255, 0⟩, ⟨true, 5, 36, 0, 1, 58⟩, ⟨false, 5, 37, 0, 255, 50⟩, ⟨false, 5, 38, 0, 255, 42⟩,
  ⟨false, 5, 39, 0, 255, 34⟩, ⟨false, 5, 40, 0, 255, 26⟩, ⟨false, 5, 41, 0, 255, 18⟩, ⟨false, 5, 42, 0, 255, 10⟩,
  ⟨false, 5, 43, 0, 255, 2⟩, ⟨false, 5, 44, 6, 255, 0⟩, ⟨true, 6, 44, 0, 63, 53⟩, ⟨false, 6, 45, 0, 255, 45⟩,
  ⟨false, 6, 46, 0, 255, 37⟩, ⟨false, 6, 47, 0, 255, 29⟩, ⟨false, 6, 48, 0, 255, 21⟩, ⟨false, 6, 49, 0, 255, 13⟩,
  ⟨false, 6, 50, 0, 255, 5⟩, ⟨false, 6, 51, 3, 255, 0⟩, ⟨true, 7, 51, 0, 7, 56⟩, ⟨false, 7, 52, 0, 255, 48⟩,
  ⟨false, 7, 53, 0, 255, 40⟩, ⟨false, 7, 54, 0, 255, 32⟩, ⟨false, 7, 55, 0, 255, 24⟩, ⟨false, 7, 56, 0, 255, 16⟩,
  ⟨false, 7, 57, 0, 255, 8⟩, ⟨false, 7, 58, 0, 255, 0⟩]

/-- `unpackBits60` bit_packing.go l.5984-6056 -/
def unpack60 : List Stmt := [
  ⟨true, 0, 0, 0, 255, 52⟩, ⟨false, 0, 1, 0, 255, 44⟩, ⟨false, 0, 2, 0, 255, 36⟩, ⟨false, 0, 3, 0, 255, 28⟩,
  ⟨false, 0, 4, 0, 255, 20⟩, ⟨false, 0, 5, 0, 255, 12⟩, ⟨false, 0, 6, 0, 255, 4⟩, ⟨false, 0, 7, 4, 255, 0⟩,
  ⟨true, 1, 7, 0, 15, 56⟩, ⟨false, 1, 8, 0, 255, 48⟩, ⟨false, 1, 9, 0, 255, 40⟩, ⟨false, 1, 10, 0, 255, 32⟩,
  ⟨false, 1, 11, 0, 255, 24⟩, ⟨false, 1, 12, 0, 255, 16⟩, ⟨false, 1, 13, 0, 255, 8⟩, ⟨false, 1, 14, 0, 255, 0⟩,
  ⟨true, 2, 15, 0, 255, 52⟩, ⟨false, 2, 16, 0, 255, 44⟩, ⟨false, 2, 17, 0, 255, 36⟩, ⟨false, 2, 18, 0, 255, 28⟩,
  ⟨false, 2, 19, 0, 255, 20⟩, ⟨false, 2, 20, 0, 255, 12⟩, ⟨false, 2, 21, 0, 255, 4⟩, ⟨false, 2, 22, 4, 255, 0⟩,
  ⟨true, 3, 22, 0, 15, 56⟩, ⟨false, 3, 23, 0, 255, 48⟩, ⟨false, 3, 24, 0, 255, 40⟩, ⟨false, 3, 25, 0, 255, 32⟩,
  ⟨false, 3, 26, 0, 255, 24⟩, ⟨false, 3, 27, 0, 255, 16⟩, ⟨false, 3, 28, 0, 255, 8⟩, ⟨false, 3, 29, 0, 255, 0⟩,
  ⟨true, 4, 30, 0, 255, 52⟩, ⟨false, 4, 31, 0, 255, 44⟩, ⟨false, 4, 32, 0, 255, 36⟩, ⟨false, 4, 33, 0, 255, 28⟩,
  ⟨false, 4, 34, 0, 255, 20⟩, ⟨false, 4, 35, 0, 255, 12⟩, ⟨false, 4, 36, 0, 255, 4⟩, ⟨false, 4, 37, 4, 255, 0⟩,
  ⟨true, 5, 37, 0, 15, 56⟩, ⟨false, 5, 38, 0, 255, 48⟩, ⟨false, 5, 39, 0, 255, 40⟩, ⟨false, 5, 40, 0, 255, 32⟩,
  ⟨false, 5, 41, 0, 255, 24⟩, ⟨false, 5, 42, 0, 255, 16⟩, ⟨false, 5, 43, 0, 255, 8⟩, ⟨false, 5, 44, 0, 255, 0⟩,
  ⟨true, 6, 45, 0, 255, 52⟩, ⟨false, 6, 46, 0, 255, 44⟩, ⟨false, 6, 47, 0, 255, 36⟩, ⟨false, 6, 48, 0, 255, 28⟩,
  ⟨false, 6, 49, 0, 255, 20⟩, ⟨false, 6, 50, 0, 255, 12⟩, ⟨false, 6, 51, 0, 255, 4⟩, ⟨false, 6, 52, 4, 255, 0⟩,
  ⟨true, 7, 52, 0, 15, 56⟩, ⟨false, 7, 53, 0, 255, 48⟩, ⟨false, 7, 54, 0, 255, 40⟩, ⟨false, 7, 55, 0, 255, 32⟩,
  ⟨false, 7, 56, 0, 255, 24⟩, ⟨false, 7, 57, 0, 255, 16⟩, ⟨false, 7, 58, 0, 255, 8⟩, ⟨false, 7, 59, 0, 255, 0⟩]

/-- `unpackBits61` bit_packing.go l.6058-6134 -/
def unpack61 : List Stmt := [
  ⟨true, 0, 0, 0, 255, 53⟩, ⟨false, 0, 1, 0, 255, 45⟩, ⟨false, 0, 2, 0, 255, 37⟩, ⟨false, 0, 3, 0, 255, 29⟩,
  ⟨false, 0, 4, 0, 255, 21⟩, ⟨false, 0, 5, 0, 255, 13⟩, ⟨false, 0, 6, 0, 255, 5⟩, ⟨false, 0, 7, 3, 255, 0⟩,
  ⟨true, 1, 7, 0, 7, 58⟩, ⟨false, 1, 8, 0, 255, 50⟩, ⟨false, 1, 9, 0, 255, 42⟩, ⟨false, 1, 10, 0, 255, 34⟩,
  ⟨false, 1, 11, 0, 255, 26⟩, ⟨false, 1, 12, 0, 255, 18⟩, ⟨false, 1, 13, 0, 255, 10⟩, ⟨false, 1, 14, 0, 255, 2⟩,
  ⟨false, 1, 15, 6, 255, 0⟩, ⟨true, 2, 15, 0, 63, 55⟩, ⟨false, 2, 16, 0, 255, 47⟩, ⟨false, 2, 17, 0, 255, 39⟩,
  ⟨false, 2, 18, 0, 255, 31⟩, ⟨false, 2, 19, 0, 255, 23⟩, ⟨false, 2, 20, 0, 255, 15⟩, ⟨false, 2, 21, 0, 255, 7⟩,
  ⟨false, 2, 22, 1, 255, 0⟩, ⟨true, 3, 22, 0, 1, 60⟩, ⟨false, 3, 23, 0, 255, 52⟩, ⟨false, 3, 24, 0, 255, 44⟩,
  ⟨false, 3, 25, 0, 255, 36⟩, ⟨false, 3, 26, 0, 255, 28⟩, ⟨false, 3, 27, 0, 255, 20⟩, ⟨false, 3, 28, 0, 255, 12⟩,
  ⟨false, 3, 29, 0, 255, 4⟩, ⟨false, 3, 30, 4, 255, 0⟩, ⟨true, 4, 30, 0, 15, 57⟩, ⟨false, 4, 31, 0, 255, 49⟩,
  ⟨false, 4, 32, 0, 255, 41⟩, ⟨false, 4, 33, 0, 255, 33⟩, ⟨false, 4, 34, 0, 255, 25⟩, ⟨false, 4, 35, 0, 255, 17⟩,
  ⟨false, 4, 36, 0, 255, 9⟩, ⟨false, 4, 37, 0, 255, 1⟩, ⟨false, 4, 38, 7, 255, 0⟩, ⟨true, 5, 38, 0, 127, 54⟩,
  ⟨false, 5, 39, 0, 255, 46⟩, ⟨false, 5, 40, 0, 255, 38⟩, ⟨false, 5, 41, 0, 255, 30⟩, ⟨false, 5, 42, 0, 255, 22⟩,
  ⟨false, 5, 43, 0, 255, 14⟩, ⟨false, 5, 44, 0, 255, 6⟩, ⟨false, 5, 45, 2, 255, 0⟩, ⟨true, 6, 45, 0, 3, 59⟩,
  ⟨false, 6, 46, 0, 255, 51⟩, ⟨false, 6, 47, 0, 255, 43⟩, ⟨false, 6, 48, 0, 255, 35⟩, ⟨false, 6, 49, 0, 255, 27⟩,
  ⟨false, 6, 50, 0, 255, 19⟩, ⟨false, 6, 51, 0, 255, 11⟩, ⟨false, 6, 52, 0, 255, 3⟩, ⟨false, 6, 53, 5, 255, 0⟩,
  ⟨true, 7, 53, 0, 31, 56⟩, ⟨false, 7, 54, 0, 255, 48⟩, ⟨false, 7, 55, 0, 255, 40⟩, ⟨false, 7, 56, 0, 255, 32⟩,
  ⟨false, 7, 57, 0, 255, 24⟩, ⟨false, 7, 58, 0, 255, 16⟩, ⟨false, 7, 59, 0, 255, 8⟩, ⟨false, 7, 60, 0, 255, 0⟩]

/-- `unpackBits62` bit_packing.go l.6136-6212 -/
def unpack62 : List Stmt := [
  ⟨true, 0, 0, 0, 255, 54⟩, ⟨false, 0, 1, 0, 255, 46⟩, ⟨false, 0, 2, 0, 255, 38⟩, ⟨false, 0, 3, 0, 255, 30⟩,
  ⟨false, 0, 4, 0, 255, 22⟩, ⟨false, 0, 5, 0, 255, 14⟩, ⟨false, 0, 6, 0, 255, 6⟩, ⟨false, 0, 7, 2, 255, 0⟩,
  ⟨true, 1, 7, 0, 3, 60⟩, ⟨false, 1, 8, 0, 255, 52⟩, ⟨false, 1, 9, 0, 255, 44⟩, ⟨false, 1, 10, 0, 255, 36⟩,
  ⟨false, 1, 11, 0, 255, 28⟩, ⟨false, 1, 12, 0, 255, 20⟩, ⟨false, 1, 13, 0, 255, 12⟩, ⟨false, 1, 14, 0, 255, 4⟩,
  ⟨false, 1, 15, 4, 255, 0⟩, ⟨true, 2, 15, 0, 15, 58⟩, ⟨false, 2, 16, 0, 255, 50⟩, ⟨false, 2, 17, 0, 255, 42⟩,
  ⟨false, 2, 18, 0, 255, 34⟩, ⟨false, 2, 19, 0, 255, 26⟩, ⟨false, 2, 20, 0, 255, 18⟩, ⟨false, 2, 21, 0, 255, 10⟩,
  ⟨false, 2, 22, 0, 255, 2⟩, ⟨false, 2, 23, 6, 255, 0⟩, ⟨true, 3, 23, 0, 63, 56⟩, ⟨false, 3, 24, 0, 255, 48⟩,
  ⟨false, 3, 25, 0, 255, 40⟩, ⟨false, 3, 26, 0, 255, 32⟩, ⟨false, 3, 27, 0, 255, 24⟩, ⟨false, 3, 28, 0, 255, 16⟩,
  ⟨false, 3, 29, 0, 255, 8⟩, ⟨false, 3, 30, 0, 255, 0⟩, ⟨true, 4, 31, 0, 255, 54⟩, ⟨false, 4, 32, 0, 255, 46⟩,
  ⟨false, 4, 33, 0, 255, 38⟩, ⟨false, 4, 34, 0, 255, 30⟩, ⟨false, 4, 35, 0, 255, 22⟩, ⟨false, 4, 36, 0, 255, 14⟩,
  ⟨false, 4, 37, 0, 255, 6⟩, ⟨false, 4, 38, 2, 255, 0⟩, ⟨true, 5, 38, 0, 3, 60⟩, ⟨false, 5, 39, 0, 255, 52⟩,
  ⟨false, 5, 40, 0, 255, 44⟩, ⟨false, 5, 41, 0, 255, 36⟩, ⟨false, 5, 42, 0, 255, 28⟩, ⟨false, 5, 43, 0, 255, 20⟩,
  ⟨false, 5, 44, 0, 255, 12⟩, ⟨false, 5, 45, 0, 255, 4⟩, ⟨false, 5, 46, 4, 255, 0⟩, ⟨true, 6, 46, 0, 15, 58⟩,
  ⟨false, 6, 47, 0, 255, 50⟩, ⟨false, 6, 48, 0, 255, 42⟩, ⟨false, 6, 49, 0, 255, 34⟩, ⟨false, 6, 50, 0, 255, 26⟩,
  ⟨false, 6, 51, 0, 255, 18⟩, ⟨false, 6, 52, 0, 255, 10⟩, ⟨false, 6, 53, 0, 255, 2⟩, ⟨false, 6, 54, 6, 255, 0⟩,
  ⟨true, 7, 54, 0, 63, 56⟩, ⟨false, 7, 55, 0, 255, 48⟩, ⟨false, 7, 56, 0, 255, 40⟩, ⟨false, 7, 57, 0, 255, 32⟩,
  ⟨false, 7, 58, 0, 255, 24⟩, ⟨false, 7, 59, 0, 255, 16⟩, ⟨false, 7, 60, 0, 255, 8⟩, ⟨false, 7, 61, 0, 255, 0⟩]

/-- `unpackBits63` bit_packing.go l.6214-6292 -/
def unpack63 : List Stmt := [
  ⟨true, 0, 0, 0, 255, 55⟩, ⟨false, 0, 1, 0, 255, 47⟩, ⟨false, 0, 2, 0, 255, 39⟩, ⟨false, 0, 3, 0, 255, 31⟩,
  ⟨false, 0, 4, 0, 255, 23⟩, ⟨false, 0, 5, 0, 255, 15⟩, ⟨false, 0, 6, 0, 255, 7⟩, ⟨false, 0, 7, 1, 255, 0⟩,
  ⟨true, 1, 7, 0, 1, 62⟩, ⟨false, 1, 8, 0, 255, 54⟩, ⟨false, 1, 9, 0, 255, 46⟩, ⟨false, 1, 10, 0, 255, 38⟩,
  ⟨false, 1, 11, 0, 255, 30⟩, ⟨false, 1, 12, 0, 255, 22⟩, ⟨false, 1, 13, 0, 255, 14⟩, ⟨false, 1, 14, 0, 255, 6⟩,
  ⟨false, 1, 15, 2, 255, 0⟩, ⟨true, 2, 15, 0, 3, 61⟩, ⟨false, 2, 16, 0, 255, 53⟩, ⟨false, 2, 17, 0, 255, 45⟩,
  ⟨false, 2, 18, 0, 255, 37⟩, ⟨false, 2, 19, 0, 255, 29⟩, ⟨false, 2, 20, 0, 255, 21⟩, ⟨false, 2, 21, 0, 255, 13⟩,
  ⟨false, 2, 22, 0, 255, 5⟩, ⟨false, 2, 23, 3, 255, 0⟩, ⟨true, 3, 23, 0, 7, 60⟩, ⟨false, 3, 24, 0, 255, 52⟩,
  ⟨false, 3, 25, 0, 255, 44⟩, ⟨false, 3, 26, 0, 255, 36⟩, ⟨false, 3, 27, 0, 255, 28⟩, ⟨false, 3, 28, 0, 255, 20⟩,
  ⟨false, 3, 29, 0, 255, 12⟩, ⟨false, 3, 30, 0, 255, 4⟩, ⟨false, 3, 31, 4, 255, 0⟩, ⟨true, 4, 31, 0, 15, 59⟩,
  ⟨false, 4, 32, 0, 255, 51⟩, ⟨false, 4, 33, 0, 255, 43⟩, ⟨false, 4, 34, 0, 255, 35⟩, ⟨false, 4, 35, 0, 255, 27⟩,
  ⟨false, 4, 36, 0, 255, 19⟩, ⟨false, 4, 37, 0, 255, 11⟩, ⟨false, 4, 38, 0, 255, 3⟩, ⟨false, 4, 39, 5, 255, 0⟩,
  ⟨true, 5, 39, 0, 31, 58⟩, ⟨false, 5, 40, 0, 255, 50⟩, ⟨false, 5, 41, 0, 255, 42⟩, ⟨false, 5, 42, 0, 255, 34⟩,
  ⟨false, 5, 43, 0, 255, 26⟩, ⟨false, 5, 44, 0, 255, 18⟩, ⟨false, 5, 45, 0, 255, 10⟩, ⟨false, 5, 46, 0, 255, 2⟩,
  ⟨false, 5, 47, 6, 255, 0⟩, ⟨true, 6, 47, 0, 63, 57⟩, ⟨false, 6, 48, 0, 255, 49⟩, ⟨false, 6, 49, 0, 255, 41⟩,
  ⟨false, 6, 50, 0, 255, 33⟩, ⟨false, 6, 51, 0, 255, 25⟩, ⟨false, 6, 52, 0, 255, 17⟩, ⟨false, 6, 53, 0, 255, 9⟩,
  ⟨false, 6, 54, 0, 255, 1⟩, ⟨false, 6, 55, 7, 255, 0⟩, ⟨true, 7, 55, 0, 127, 56⟩, ⟨false, 7, 56, 0, 255, 48⟩,
  ⟨false, 7, 57, 0, 255, 40⟩, ⟨false, 7, 58, 0, 255, 32⟩, ⟨false, 7, 59, 0, 255, 24⟩, ⟨false, 7, 60, 0, 255, 16⟩,
  ⟨false, 7, 61, 0, 255, 8⟩, ⟨false, 7, 62, 0, 255, 0⟩]

/-- the `switch` of `packBitsBlock8` l.3239-3371; `none` is the default case -/
def packProg : Nat → Option (List Stmt)
  | 1 => some pack1
  | 2 => some pack2
  | 3 => some pack3
  | 4 => some pack4
  | 5 => some pack5
  | 6 => some pack6
  | 7 => some pack7
  | 8 => some pack8
  | 9 => some pack9
  | 10 => some pack10
  | 11 => some pack11
  | 12 => some pack12
  | 13 => some pack13
  | 14 => some pack14
  | 15 => some pack15
  | 16 => some pack16
  | 17 => some pack17
  | 18 => some pack18
  | 19 => some pack19
  | 20 => some pack20
  | 21 => some pack21
  | 22 => some pack22
  | 23 => some pack23
  | 24 => some pack24
  | 25 => some pack25
  | 26 => some pack26
  | 27 => some pack27
  | 28 => some pack28
  | 29 => some pack29
  | 30 => some pack30
  | 31 => some pack31
  | 32 => some pack32
  | 33 => some pack33
  | 34 => some pack34
  | 35 => some pack35
  | 36 => some pack36
  | 37 => some pack37
  | 38 => some pack38
  | 39 => some pack39
  | 40 => some pack40
  | 41 => some pack41
  | 42 => some pack42
  | 43 => some pack43
  | 44 => some pack44
  | 45 => some pack45
  | 46 => some pack46
  | 47 => some pack47
  | 48 => some pack48
  | 49 => some pack49
  | 50 => some pack50
  | 51 => some pack51
  | 52 => some pack52
  | 53 => some pack53
  | 54 => some pack54
  | 55 => some pack55
  | 56 => some pack56
  | 57 => some pack57
  | 58 => some pack58
  | 59 => some pack59
  | 60 => some pack60
  | 61 => some pack61
  | 62 => some pack62
  | 63 => some pack63
  | _ => none

/-- the `switch` of `unpackBitsBlock8` l.6298-6430; `none` is the default case -/
def unpackProg : Nat → Option (List Stmt)
  | 1 => some unpack1
  | 2 => some unpack2
  | 3 => some unpack3
  | 4 => some unpack4
  | 5 => some unpack5
  | 6 => some unpack6
  | 7 => some unpack7
  | 8 => some unpack8
  | 9 => some unpack9
  | 10 => some unpack10
  | 11 => some unpack11
  | 12 => some unpack12
  | 13 => some unpack13
  | 14 => some unpack14
  | 15 => some unpack15
  | 16 => some unpack16
  | 17 => some unpack17
  | 18 => some unpack18
  | 19 => some unpack19
  | 20 => some unpack20
  | 21 => some unpack21
  | 22 => some unpack22
  | 23 => some unpack23
  | 24 => some unpack24
  | 25 => some unpack25
  | 26 => some unpack26
  | 27 => some unpack27
  | 28 => some unpack28
  | 29 => some unpack29
  | 30 => some unpack30
  | 31 => some unpack31
  | 32 => some unpack32
  | 33 => some unpack33
  | 34 => some unpack34
  | 35 => some unpack35
  | 36 => some unpack36
  | 37 => some unpack37
  | 38 => some unpack38
  | 39 => some unpack39
  | 40 => some unpack40
  | 41 => some unpack41
  | 42 => some unpack42
  | 43 => some unpack43
  | 44 => some unpack44
  | 45 => some unpack45
  | 46 => some unpack46
  | 47 => some unpack47
  | 48 => some unpack48
  | 49 => some unpack49
  | 50 => some unpack50
  | 51 => some unpack51
  | 52 => some unpack52
  | 53 => some unpack53
  | 54 => some unpack54
  | 55 => some unpack55
  | 56 => some unpack56
  | 57 => some unpack57
  | 58 => some unpack58
  | 59 => some unpack59
  | 60 => some unpack60
  | 61 => some unpack61
  | 62 => some unpack62
  | 63 => some unpack63
  | _ => none

end Verif.BitPack
