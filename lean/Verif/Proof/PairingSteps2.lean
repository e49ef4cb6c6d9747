import Verif.Proof.PairingData
/- Generated: steps of the final power. -/
namespace Bls.ND
open NPoly

theorem step17 : powStep qLit y0 64 0x7ab1cd294a502304 s17 = s18 := by decide +kernel
theorem step18 : powStep qLit y0 64 0x773528bbae870697 s18 = s19 := by decide +kernel
theorem step19 : powStep qLit y0 64 0x9f28efa0d355b022 s19 = s20 := by decide +kernel
theorem step20 : powStep qLit y0 64 0x4e2513d6e4a5d3bb s20 = s21 := by decide +kernel
theorem step21 : powStep qLit y0 64 0x4dde0523678105d9 s21 = s22 := by decide +kernel
theorem step22 : powStep qLit y0 64 0x167ff1323d6e99ac s22 = s23 := by decide +kernel
theorem step23 : powStep qLit y0 64 0x312d8a7d76233637 s23 = s24 := by decide +kernel
theorem step24 : powStep qLit y0 64 0xc4347bb5a7e405d s24 = s25 := by decide +kernel
theorem step25 : powStep qLit y0 64 0x6f3496b2dd38e722 s25 = s26 := by decide +kernel
theorem step26 : powStep qLit y0 64 0xd4c1f3ac25e3167e s26 = s27 := by decide +kernel
theorem step27 : powStep qLit y0 64 0xc2cb543d69430c37 s27 = s28 := by decide +kernel
theorem step28 : powStep qLit y0 64 0xc2f98fcdd0dd36ca s28 = s29 := by decide +kernel
theorem step29 : powStep qLit y0 64 0xa9f5aa7994cec31b s29 = s30 := by decide +kernel
theorem step30 : powStep qLit y0 64 0x24ed5e515911037b s30 = s31 := by decide +kernel
theorem step31 : powStep qLit y0 64 0x376e521070d29c9d s31 = s32 := by decide +kernel
theorem step32 : powStep qLit y0 64 0x56cfa8c3574363ef s32 = s33 := by decide +kernel
theorem step33 : powStep qLit y0 64 0xb20f28c19e4105ab s33 = s34 := by decide +kernel
end Bls.ND
