import Verif.Model.Bn
import Verif.Spec.Curve

/-! The table of named curves and the groups built from it: dstulib/params.c:14-312, 394-488. -/

namespace Dstu

open Spec

/-- dstulib/params.c:14-34: A, B, N, Px, Py of the curve of degree 163. -/
def data163 : List Byte := [
  0x01,
  0x05, 0xFF, 0x61, 0x08, 0x46, 0x2A, 0x2D, 0xC8, 0x21, 0x0A, 0xB4, 0x03,
  0x92, 0x5E, 0x63, 0x8A, 0x19, 0xC1, 0x45, 0x5D, 0x21,
  0x04, 0x00, 0x00, 0x00, 0x00, 0x00, 0x00, 0x00, 0x00, 0x00, 0x02, 0xBE,
  0xC1, 0x2B, 0xE2, 0x26, 0x2D, 0x39, 0xBC, 0xF1, 0x4D,
  0x02, 0xE2, 0xF8, 0x5F, 0x5D, 0xD7, 0x4C, 0xE9, 0x83, 0xA5, 0xC4, 0x23,
  0x72, 0x29, 0xDA, 0xF8, 0xA3, 0xF3, 0x58, 0x23, 0xBE,
  0x03, 0x82, 0x6F, 0x00, 0x8A, 0x8C, 0x51, 0xD7, 0xB9, 0x52, 0x84, 0xD9,
  0xD0, 0x3F, 0xF0, 0xE0, 0x0C, 0xE2, 0xCD, 0x72, 0x3A]

/-- dstulib/params.c:36-56: A, B, N, Px, Py of the curve of degree 167. -/
def data167 : List Byte := [
  0x01,
  0x6E, 0xE3, 0xCE, 0xEB, 0x23, 0x08, 0x11, 0x75, 0x9F, 0x20, 0x51, 0x8A,
  0x09, 0x30, 0xF1, 0xA4, 0x31, 0x5A, 0x82, 0x7D, 0xAC,
  0x3F, 0xFF, 0xFF, 0xFF, 0xFF, 0xFF, 0xFF, 0xFF, 0xFF, 0xFF, 0xFF, 0xB1,
  0x2E, 0xBC, 0xC7, 0xD7, 0xF2, 0x9F, 0xF7, 0x70, 0x1F,
  0x7A, 0x1F, 0x66, 0x53, 0x78, 0x6A, 0x68, 0x19, 0x28, 0x03, 0x91, 0x0A,
  0x3D, 0x30, 0xB2, 0xA2, 0x01, 0x8B, 0x21, 0xCD, 0x54,
  0x5F, 0x49, 0xEB, 0x26, 0x78, 0x1C, 0x0E, 0xC6, 0xB8, 0x90, 0x91, 0x56,
  0xD9, 0x8E, 0xD4, 0x35, 0xE4, 0x5F, 0xD5, 0x99, 0x18]

/-- dstulib/params.c:58-78: A, B, N, Px, Py of the curve of degree 173. -/
def data173 : List Byte := [
  0x00,
  0x10, 0x85, 0x76, 0xC8, 0x04, 0x99, 0xDB, 0x2F, 0xC1, 0x6E, 0xDD, 0xF6,
  0x85, 0x3B, 0xBB, 0x27, 0x8F, 0x6B, 0x6F, 0xB4, 0x37, 0xD9,
  0x08, 0x00, 0x00, 0x00, 0x00, 0x00, 0x00, 0x00, 0x00, 0x00, 0x00, 0x18,
  0x9B, 0x4E, 0x67, 0x60, 0x6E, 0x38, 0x25, 0xBB, 0x28, 0x31,
  0x04, 0xD4, 0x1A, 0x61, 0x9B, 0xCC, 0x6E, 0xAD, 0xF0, 0x44, 0x8F, 0xA2,
  0x2F, 0xAD, 0x56, 0x7A, 0x91, 0x81, 0xD3, 0x73, 0x89, 0xCA,
  0x10, 0xB5, 0x1C, 0xC1, 0x28, 0x49, 0xB2, 0x34, 0xC7, 0x5E, 0x6D, 0xD2,
  0x02, 0x8B, 0xF7, 0xFF, 0x5C, 0x1C, 0xE0, 0xD9, 0x91, 0xA1]

/-- dstulib/params.c:80-100: A, B, N, Px, Py of the curve of degree 179. -/
def data179 : List Byte := [
  0x01,
  0x04, 0xA6, 0xE0, 0x85, 0x65, 0x26, 0x43, 0x6F, 0x2F, 0x88, 0xDD, 0x07,
  0xA3, 0x41, 0xE3, 0x2D, 0x04, 0x18, 0x45, 0x72, 0xBE, 0xB7, 0x10,
  0x03, 0xFF, 0xFF, 0xFF, 0xFF, 0xFF, 0xFF, 0xFF, 0xFF, 0xFF, 0xFF, 0xFF,
  0xB9, 0x81, 0x96, 0x04, 0x35, 0xFE, 0x5A, 0xB6, 0x42, 0x36, 0xEF,
  0x06, 0xBA, 0x06, 0xFE, 0x51, 0x46, 0x4B, 0x2B, 0xD2, 0x6D, 0xC5, 0x7F,
  0x48, 0x81, 0x9B, 0xA9, 0x95, 0x46, 0x67, 0x02, 0x2C, 0x7D, 0x03,
  0x02, 0x5F, 0xBC, 0x36, 0x35, 0x82, 0xDC, 0xEC, 0x06, 0x50, 0x80, 0xCA,
  0x82, 0x87, 0xAA, 0xFF, 0x09, 0x78, 0x8A, 0x66, 0xDC, 0x3A, 0x9E]

/-- dstulib/params.c:102-122: A, B, N, Px, Py of the curve of degree 191. -/
def data191 : List Byte := [
  0x01,
  0x7B, 0xC8, 0x6E, 0x21, 0x02, 0x90, 0x2E, 0xC4, 0xD5, 0x89, 0x0E, 0x8B,
  0x6B, 0x49, 0x81, 0xFF, 0x27, 0xE0, 0x48, 0x27, 0x50, 0xFE, 0xFC, 0x03,
  0x40, 0x00, 0x00, 0x00, 0x00, 0x00, 0x00, 0x00, 0x00, 0x00, 0x00, 0x00,
  0x69, 0xA7, 0x79, 0xCA, 0xC1, 0xDA, 0xBC, 0x67, 0x88, 0xF7, 0x47, 0x4F,
  0x71, 0x41, 0x14, 0xB7, 0x62, 0xF2, 0xFF, 0x4A, 0x79, 0x12, 0xA6, 0xD2,
  0xAC, 0x58, 0xB9, 0xB5, 0xC2, 0xFC, 0xFE, 0x76, 0xDA, 0xEB, 0x71, 0x29,
  0x29, 0xC4, 0x1E, 0x56, 0x8B, 0x77, 0xC6, 0x17, 0xEF, 0xE5, 0x90, 0x2F,
  0x11, 0xDB, 0x96, 0xFA, 0x96, 0x13, 0xCD, 0x8D, 0x03, 0xDB, 0x08, 0xDA]

/-- dstulib/params.c:124-148: A, B, N, Px, Py of the curve of degree 233. -/
def data233 : List Byte := [
  0x01,
  0x00, 0x69, 0x73, 0xB1, 0x50, 0x95, 0x67, 0x55, 0x34, 0xC7, 0xCF, 0x7E,
  0x64, 0xA2, 0x1B, 0xD5, 0x4E, 0xF5, 0xDD, 0x3B, 0x8A, 0x03, 0x26, 0xAA,
  0x93, 0x6E, 0xCE, 0x45, 0x4D, 0x2C,
  0x01, 0x00, 0x00, 0x00, 0x00, 0x00, 0x00, 0x00, 0x00, 0x00, 0x00, 0x00,
  0x00, 0x00, 0x00, 0x13, 0xE9, 0x74, 0xE7, 0x2F, 0x8A, 0x69, 0x22, 0x03,
  0x1D, 0x26, 0x03, 0xCF, 0xE0, 0xD7,
  0x00, 0x3F, 0xCD, 0xA5, 0x26, 0xB6, 0xCD, 0xF8, 0x3B, 0xA1, 0x11, 0x8D,
  0xF3, 0x5B, 0x3C, 0x31, 0x76, 0x1D, 0x35, 0x45, 0xF3, 0x27, 0x28, 0xD0,
  0x03, 0xEE, 0xB2, 0x5E, 0xFE, 0x96,
  0x00, 0x9C, 0xA8, 0xB5, 0x7A, 0x93, 0x4C, 0x54, 0xDE, 0xED, 0xA9, 0xE5,
  0x4A, 0x7B, 0xBA, 0xD9, 0x5E, 0x3B, 0x2E, 0x91, 0xC5, 0x4D, 0x32, 0xBE,
  0x0B, 0x9D, 0xF9, 0x6D, 0x8D, 0x35]

/-- dstulib/params.c:150-174: A, B, N, Px, Py of the curve of degree 257. -/
def data257 : List Byte := [
  0x00,
  0x01, 0xCE, 0xF4, 0x94, 0x72, 0x01, 0x15, 0x65, 0x7E, 0x18, 0xF9, 0x38,
  0xD7, 0xA7, 0x94, 0x23, 0x94, 0xFF, 0x94, 0x25, 0xC1, 0x45, 0x8C, 0x57,
  0x86, 0x1F, 0x9E, 0xEA, 0x6A, 0xDB, 0xE3, 0xBE, 0x10,
  0x00, 0x80, 0x00, 0x00, 0x00, 0x00, 0x00, 0x00, 0x00, 0x00, 0x00, 0x00,
  0x00, 0x00, 0x00, 0x00, 0x00, 0x67, 0x59, 0x21, 0x3A, 0xF1, 0x82, 0xE9,
  0x87, 0xD3, 0xE1, 0x77, 0x14, 0x90, 0x7D, 0x47, 0x0D,
  0x00, 0x2A, 0x29, 0xEF, 0x20, 0x7D, 0x0E, 0x9B, 0x6C, 0x55, 0xCD, 0x26,
  0x0B, 0x30, 0x6C, 0x7E, 0x00, 0x7A, 0xC4, 0x91, 0xCA, 0x1B, 0x10, 0xC6,
  0x23, 0x34, 0xA9, 0xE8, 0xDC, 0xD8, 0xD2, 0x0F, 0xB7,
  0x01, 0x06, 0x86, 0xD4, 0x1F, 0xF7, 0x44, 0xD4, 0x44, 0x9F, 0xCC, 0xF6,
  0xD8, 0xEE, 0xA0, 0x31, 0x02, 0xE6, 0x81, 0x2C, 0x93, 0xA9, 0xD6, 0x0B,
  0x97, 0x8B, 0x70, 0x2C, 0xF1, 0x56, 0xD8, 0x14, 0xEF]

/-- dstulib/params.c:176-204: A, B, N, Px, Py of the curve of degree 307. -/
def data307 : List Byte := [
  0x01,
  0x03, 0x93, 0xC7, 0xF7, 0xD5, 0x36, 0x66, 0xB5, 0x05, 0x4B, 0x5E, 0x6C,
  0x6D, 0x3D, 0xE9, 0x4F, 0x42, 0x96, 0xC0, 0xC5, 0x99, 0xE2, 0xE2, 0xE2,
  0x41, 0x05, 0x0D, 0xF1, 0x8B, 0x60, 0x90, 0xBD, 0xC9, 0x01, 0x86, 0x90,
  0x49, 0x68, 0xBB,
  0x03, 0xFF, 0xFF, 0xFF, 0xFF, 0xFF, 0xFF, 0xFF, 0xFF, 0xFF, 0xFF, 0xFF,
  0xFF, 0xFF, 0xFF, 0xFF, 0xFF, 0xFF, 0xFF, 0xFF, 0xC0, 0x79, 0xC2, 0xF3,
  0x82, 0x5D, 0xA7, 0x0D, 0x39, 0x0F, 0xBB, 0xA5, 0x88, 0xD4, 0x60, 0x40,
  0x22, 0xB7, 0xB7,
  0x02, 0x16, 0xEE, 0x8B, 0x18, 0x9D, 0x29, 0x1A, 0x02, 0x24, 0x98, 0x4C,
  0x1E, 0x92, 0xF1, 0xD1, 0x6B, 0xF7, 0x5C, 0xCD, 0x82, 0x5A, 0x08, 0x7A,
  0x23, 0x9B, 0x27, 0x6D, 0x31, 0x67, 0x74, 0x3C, 0x52, 0xC0, 0x2D, 0x6E,
  0x72, 0x32, 0xAA,
  0x05, 0xD9, 0x30, 0x6B, 0xAC, 0xD2, 0x2B, 0x7F, 0xAE, 0xB0, 0x9D, 0x2E,
  0x04, 0x9C, 0x6E, 0x28, 0x66, 0xC5, 0xD1, 0x67, 0x77, 0x62, 0xA8, 0xF2,
  0xF2, 0xDC, 0x9A, 0x11, 0xC7, 0xF7, 0xBE, 0x83, 0x40, 0xAB, 0x22, 0x37,
  0xC7, 0xF2, 0xA0]

/-- dstulib/params.c:206-234: A, B, N, Px, Py of the curve of degree 367. -/
def data367 : List Byte := [
  0x01,
  0x43, 0xFC, 0x8A, 0xD2, 0x42, 0xB0, 0xB7, 0xA6, 0xF3, 0xD1, 0x62, 0x7A,
  0xD5, 0x65, 0x44, 0x47, 0x55, 0x6B, 0x47, 0xBF, 0x6A, 0xA4, 0xA6, 0x4B,
  0x0C, 0x2A, 0xFE, 0x42, 0xCA, 0xDA, 0xB8, 0xF9, 0x3D, 0x92, 0x39, 0x4C,
  0x79, 0xA7, 0x97, 0x55, 0x43, 0x7B, 0x56, 0x99, 0x51, 0x36,
  0x40, 0x00, 0x00, 0x00, 0x00, 0x00, 0x00, 0x00, 0x00, 0x00, 0x00, 0x00,
  0x00, 0x00, 0x00, 0x00, 0x00, 0x00, 0x00, 0x00, 0x00, 0x00, 0x00, 0x9C,
  0x30, 0x0B, 0x75, 0xA3, 0xFA, 0x82, 0x4F, 0x22, 0x42, 0x8F, 0xD2, 0x8C,
  0xE8, 0x81, 0x22, 0x45, 0xEF, 0x44, 0x04, 0x9B, 0x2D, 0x49,
  0x32, 0x4A, 0x6E, 0xDD, 0xD5, 0x12, 0xF0, 0x8C, 0x49, 0xA9, 0x9A, 0xE0,
  0xD3, 0xF9, 0x61, 0x19, 0x7A, 0x76, 0x41, 0x3E, 0x7B, 0xE8, 0x1A, 0x40,
  0x0C, 0xA6, 0x81, 0xE0, 0x96, 0x39, 0xB5, 0xFE, 0x12, 0xE5, 0x9A, 0x10,
  0x9F, 0x78, 0xBF, 0x4A, 0x37, 0x35, 0x41, 0xB3, 0xB9, 0xA1,
  0x01, 0xAB, 0x59, 0x7A, 0x5B, 0x44, 0x77, 0xF5, 0x9E, 0x39, 0x53, 0x90,
  0x07, 0xC7, 0xF9, 0x77, 0xD1, 0xA5, 0x67, 0xB9, 0x2B, 0x04, 0x3A, 0x49,
  0xC6, 0xB6, 0x19, 0x84, 0xC3, 0xFE, 0x34, 0x81, 0xAA, 0xF4, 0x54, 0xCD,
  0x41, 0xBA, 0x1F, 0x05, 0x16, 0x26, 0x44, 0x2B, 0x3C, 0x10]

/-- dstulib/params.c:236-268: A, B, N, Px, Py of the curve of degree 431. -/
def data431 : List Byte := [
  0x01,
  0x03, 0xCE, 0x10, 0x49, 0x0F, 0x6A, 0x70, 0x8F, 0xC2, 0x6D, 0xFE, 0x8C,
  0x3D, 0x27, 0xC4, 0xF9, 0x4E, 0x69, 0x01, 0x34, 0xD5, 0xBF, 0xF9, 0x88,
  0xD8, 0xD2, 0x8A, 0xAE, 0xAE, 0xDE, 0x97, 0x59, 0x36, 0xC6, 0x6B, 0xAC,
  0x53, 0x6B, 0x18, 0xAE, 0x2D, 0xC3, 0x12, 0xCA, 0x49, 0x31, 0x17, 0xDA,
  0xA4, 0x69, 0xC6, 0x40, 0xCA, 0xF3,
  0x3F, 0xFF, 0xFF, 0xFF, 0xFF, 0xFF, 0xFF, 0xFF, 0xFF, 0xFF, 0xFF, 0xFF,
  0xFF, 0xFF, 0xFF, 0xFF, 0xFF, 0xFF, 0xFF, 0xFF, 0xFF, 0xFF, 0xFF, 0xFF,
  0xFF, 0xFF, 0xFF, 0xBA, 0x31, 0x75, 0x45, 0x80, 0x09, 0xA8, 0xC0, 0xA7,
  0x24, 0xF0, 0x2F, 0x81, 0xAA, 0x8A, 0x1F, 0xCB, 0xAF, 0x80, 0xD9, 0x0C,
  0x7A, 0x95, 0x11, 0x05, 0x04, 0xCF,
  0x1A, 0x62, 0xBA, 0x79, 0xD9, 0x81, 0x33, 0xA1, 0x6B, 0xBA, 0xE7, 0xED,
  0x9A, 0x8E, 0x03, 0xC3, 0x2E, 0x08, 0x24, 0xD5, 0x7A, 0xEF, 0x72, 0xF8,
  0x89, 0x86, 0x87, 0x4E, 0x5A, 0xAE, 0x49, 0xC2, 0x7B, 0xED, 0x49, 0xA2,
  0xA9, 0x50, 0x58, 0x06, 0x84, 0x26, 0xC2, 0x17, 0x1E, 0x99, 0xFD, 0x3B,
  0x43, 0xC5, 0x94, 0x7C, 0x85, 0x7D,
  0x70, 0xB5, 0xE1, 0xE1, 0x40, 0x31, 0xC1, 0xF7, 0x0B, 0xBE, 0xFE, 0x96,
  0xBD, 0xDE, 0x66, 0xF4, 0x51, 0x75, 0x4B, 0x4C, 0xA5, 0xF4, 0x8D, 0xA2,
  0x41, 0xF3, 0x31, 0xAA, 0x39, 0x6B, 0x8D, 0x18, 0x39, 0xA8, 0x55, 0xC1,
  0x76, 0x9B, 0x1E, 0xA1, 0x4B, 0xA5, 0x33, 0x08, 0xB5, 0xE2, 0x72, 0x37,
  0x24, 0xE0, 0x90, 0xE0, 0x2D, 0xB9]

/-- dstulib/params.h:17-22 `DSTU_NAMED_CURVE`. -/
structure NamedCurve where
  nid : Nat
  poly : List Int
  data : List Byte

/-- The object identifiers `NID_uacurve0` … `NID_uacurve9` are constants of OpenSSL's obj_mac.h.  Only
that they are ten different numbers, none of them `NID_undef` (0), is used. -/
structure CurveNids where
  uacurve : Fin 10 → Nat
  distinct : Function.Injective uacurve
  defined : ∀ i, uacurve i ≠ 0

/-- OpenSSL `NID_undef`. -/
def NID_undef : Nat := 0

/-- dstulib/params.c:270-282 `dstu_curves`. -/
def dstu_curves (nids : CurveNids) : List NamedCurve := [
  ⟨nids.uacurve 0, [163, 7, 6, 3, 0, -1], data163⟩,
  ⟨nids.uacurve 1, [167, 6, 0, -1, 0, 0], data167⟩,
  ⟨nids.uacurve 2, [173, 10, 2, 1, 0, -1], data173⟩,
  ⟨nids.uacurve 3, [179, 4, 2, 1, 0, -1], data179⟩,
  ⟨nids.uacurve 4, [191, 9, 0, -1, 0, 0], data191⟩,
  ⟨nids.uacurve 5, [233, 9, 4, 1, 0, -1], data233⟩,
  ⟨nids.uacurve 6, [257, 12, 0, -1, 0, 0], data257⟩,
  ⟨nids.uacurve 7, [307, 8, 4, 2, 0, -1], data307⟩,
  ⟨nids.uacurve 8, [367, 21, 0, -1, 0, 0], data367⟩,
  ⟨nids.uacurve 9, [431, 5, 3, 1, 0, -1], data431⟩]

/-- OpenSSL `BN_GF2m_arr2poly`: sets the bits listed before the terminator -1
(used at dstulib/params.c:419). -/
def arr2poly (l : List Int) : Nat := (l.takeWhile (· ≠ -1)).foldr (fun k acc => 2 ^ k.toNat ||| acc) 0

/-- What an `EC_GROUP` over a binary field stores: the field polynomial, the coefficients, the
generator, its order and the cofactor. -/
structure EcGroup where
  p : Nat
  a : Nat
  b : Nat
  gx : Nat
  gy : Nat
  n : Nat
  h : Nat
deriving DecidableEq

/-- OpenSSL `EC_GROUP_get_degree`: the degree of the field polynomial
(used at dstulib/params.c:287, dstulib/compress.c:51). -/
def EcGroup.degree (g : EcGroup) : Nat := g.p.log2

/-- The number of non-zero coefficients of the field polynomial. -/
def weight (p : Nat) : Nat := ((List.range (p.log2 + 1)).filter p.testBit).length

/-- OpenSSL `EC_GROUP_new_curve_GF2m`: the field polynomial must be a trinomial or a pentanomial, the
coefficients are reduced (used at dstulib/params.c:433).  The result is the triple it stores. -/
noncomputable def new_curve_GF2m (p a b : Nat) : Option (Nat × Nat × Nat) :=
  if weight p = 3 ∨ weight p = 5 then some (p, gf2m_mod p a, gf2m_mod p b) else none

open Classical in
/-- OpenSSL `EC_POINT_set_affine_coordinates_GF2m`: fails when the coordinates do not satisfy the
equation of the curve (used at dstulib/params.c:452, dstulib/compress.c:152, 208). -/
noncomputable def set_affine (p a b x y : Nat) : Option (Nat × Nat) :=
  if OnCurve (GF.ofNat p a) (GF.ofNat p b) (GF.ofNat p x) (GF.ofNat p y) then some (x, y) else none

/-- dstulib/params.c:394-475 `group_from_named_curve` (the table entry instead of its index).
`none`: no group (the C function returns NULL); reads past the end of the data would be undefined
behaviour and also give `none`. -/
noncomputable def groupOfEntry (c : NamedCurve) : Option EcGroup := do
  let bytesize := ((c.poly.headD 0).toNat + 7) / 8
  guard (1 + 4 * bytesize ≤ c.data.length)
  let p := arr2poly c.poly
  let a := if c.data.headD 0 ≠ 0 then 1 else 0
  let data := c.data.drop 1
  let b := bin2bn (data.take bytesize)
  let data := data.drop bytesize
  let (p, a, b) ← new_curve_GF2m p a b
  let N := bin2bn (data.take bytesize)
  let data := data.drop bytesize
  let Px := bin2bn (data.take bytesize)
  let data := data.drop bytesize
  let Py := bin2bn (data.take bytesize)
  let (x, y) ← set_affine p a b Px Py
  return ⟨p, a, b, x, y, N, 1⟩

/-- dstulib/params.c:394-475 `group_from_named_curve`. -/
noncomputable def group_from_named_curve (nids : CurveNids) (curve_num : Nat) : Option EcGroup := do
  groupOfEntry (← (dstu_curves nids)[curve_num]?)

/-- dstulib/params.c:477-488 `group_from_nid`: the first entry with that identifier. -/
noncomputable def group_from_nid (nids : CurveNids) (nid : Nat) : Option EcGroup := do
  let i ← (dstu_curves nids).findIdx? (fun c => nid = c.nid)
  group_from_named_curve nids i

/-- dstulib/params.c:284-312 `curve_nid_from_group`: the first entry of the same degree, if its group
equals the given one.  OpenSSL `EC_GROUP_cmp` returns 0 iff field, coefficients, generator, order and
cofactor agree. -/
noncomputable def curve_nid_from_group (nids : CurveNids) (g : EcGroup) : Nat :=
  match (dstu_curves nids).findIdx? (fun c => (g.degree : Int) = c.poly.headD 0) with
  | none => NID_undef
  | some i =>
    match group_from_named_curve nids i with
    | none => NID_undef
    | some std => if g = std then (((dstu_curves nids)[i]?).map (·.nid)).getD NID_undef else NID_undef

/-- dstulib/params.h:14-15 `get_default_group()`. -/
noncomputable def get_default_group (nids : CurveNids) : Option EcGroup := group_from_named_curve nids 6

end Dstu
