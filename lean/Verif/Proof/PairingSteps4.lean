import Verif.Proof.PairingData
/- Generated: steps of the final power. -/
namespace Bls.ND
open NPoly

theorem step51 : powStep qLit y0 64 0x44dc2a7f86c253a4 s51 = s52 := by decide +kernel
theorem step52 : powStep qLit y0 64 0xee57b6df108eff59 s52 = s53 := by decide +kernel
theorem step53 : powStep qLit y0 64 0x8a8dbc483bf8b74c s53 = s54 := by decide +kernel
theorem step54 : powStep qLit y0 64 0x2789939db85ffd7e s54 = s55 := by decide +kernel
theorem step55 : powStep qLit y0 64 0xfd55b32bc26877f s55 = s56 := by decide +kernel
theorem step56 : powStep qLit y0 64 0x5be26fa7d750500c s56 = s57 := by decide +kernel
theorem step57 : powStep qLit y0 64 0xe2fab93c0cbe7336 s57 = s58 := by decide +kernel
theorem step58 : powStep qLit y0 64 0xb126a5693d0c1648 s58 = s59 := by decide +kernel
theorem step59 : powStep qLit y0 64 0x4f37addccc764259 s59 = s60 := by decide +kernel
theorem step60 : powStep qLit y0 64 0xdbe98538990b886 s60 = s61 := by decide +kernel
theorem step61 : powStep qLit y0 64 0x37e374d545d9b34b s61 = s62 := by decide +kernel
theorem step62 : powStep qLit y0 64 0x67448d0357e60280 s62 = s63 := by decide +kernel
theorem step63 : powStep qLit y0 64 0xbbd8542f1f4e813c s63 = s64 := by decide +kernel
theorem step64 : powStep qLit y0 64 0xaa8e8db57364b4e0 s64 = s65 := by decide +kernel
theorem step65 : powStep qLit y0 64 0xcc14f35af381dd9b s65 = s66 := by decide +kernel
theorem step66 : powStep qLit y0 64 0x71ec9292b3a3f16e s66 = s67 := by decide +kernel
theorem step67 : powStep qLit y0 64 0x42362d2019e05f30 s67 = s68 := by decide +kernel
end Bls.ND
