import Verif.Proof.PairingData
/- Generated: steps of the final power. -/
namespace Bls.ND
open NPoly

theorem step34 : powStep qLit y0 64 0x99edd44084bd2372 s34 = s35 := by decide +kernel
theorem step35 : powStep qLit y0 64 0x5017931d6740bda7 s35 = s36 := by decide +kernel
theorem step36 : powStep qLit y0 64 0x1e5f07600ce6b407 s36 = s37 := by decide +kernel
theorem step37 : powStep qLit y0 64 0xe543c4bc40bcd4c0 s37 = s38 := by decide +kernel
theorem step38 : powStep qLit y0 64 0xb600e6c98003bf85 s38 = s39 := by decide +kernel
theorem step39 : powStep qLit y0 64 0x48986b14d9098746 s39 = s40 := by decide +kernel
theorem step40 : powStep qLit y0 64 0xdc89d154af91ad54 s40 = s41 := by decide +kernel
theorem step41 : powStep qLit y0 64 0xf337b31c79222145 s41 = s42 := by decide +kernel
theorem step42 : powStep qLit y0 64 0xdd3ed254fdeda030 s42 = s43 := by decide +kernel
theorem step43 : powStep qLit y0 64 0xc49ebcd2352765f s43 = s44 := by decide +kernel
theorem step44 : powStep qLit y0 64 0x533883a3513435f3 s44 = s45 := by decide +kernel
theorem step45 : powStep qLit y0 64 0xee452496f5166c25 s45 = s46 := by decide +kernel
theorem step46 : powStep qLit y0 64 0xbf503bd6ec0a0679 s46 = s47 := by decide +kernel
theorem step47 : powStep qLit y0 64 0xefda3b46ebf86211 s47 = s48 := by decide +kernel
theorem step48 : powStep qLit y0 64 0xd458de749460d4a2 s48 = s49 := by decide +kernel
theorem step49 : powStep qLit y0 64 0xa19abe6ea2accb45 s49 = s50 := by decide +kernel
theorem step50 : powStep qLit y0 64 0x1ab9a096b98465d0 s50 = s51 := by decide +kernel
end Bls.ND
