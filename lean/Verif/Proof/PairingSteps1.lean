import Verif.Proof.PairingData
/- Generated: steps of the final power. -/
namespace Bls.ND
open NPoly

theorem step0 : powStep qLit y0 64 0x8ca5921 s0 = s1 := by decide +kernel
theorem step1 : powStep qLit y0 64 0x96587127a538fd40 s1 = s2 := by decide +kernel
theorem step2 : powStep qLit y0 64 0xdc3e541f9dca04bb s2 = s3 := by decide +kernel
theorem step3 : powStep qLit y0 64 0x7dc671be77cf1771 s3 = s4 := by decide +kernel
theorem step4 : powStep qLit y0 64 0x5a2b2fe3bea73dfb s4 = s5 := by decide +kernel
theorem step5 : powStep qLit y0 64 0x468d8f473094aecb s5 = s6 := by decide +kernel
theorem step6 : powStep qLit y0 64 0x7315a664019fbd84 s6 = s7 := by decide +kernel
theorem step7 : powStep qLit y0 64 0x913caba6579c08fd s7 = s8 := by decide +kernel
theorem step8 : powStep qLit y0 64 0x42009fe1bd6fcbce s8 = s9 := by decide +kernel
theorem step9 : powStep qLit y0 64 0x15eacb2cf3218a16 s9 = s10 := by decide +kernel
theorem step10 : powStep qLit y0 64 0x5958cb8bfdae2d2d s10 = s11 := by decide +kernel
theorem step11 : powStep qLit y0 64 0x54207282314fc0de s11 = s12 := by decide +kernel
theorem step12 : powStep qLit y0 64 0xa9d6ff3a07dbd34e s12 = s13 := by decide +kernel
theorem step13 : powStep qLit y0 64 0xfb77b732ba5f9948 s13 = s14 := by decide +kernel
theorem step14 : powStep qLit y0 64 0x16e296a72928cfee s14 = s15 := by decide +kernel
theorem step15 : powStep qLit y0 64 0x133bdc3ca9412b98 s15 = s16 := by decide +kernel
theorem step16 : powStep qLit y0 64 0x4b9783d9c6aa8129 s16 = s17 := by decide +kernel
end Bls.ND
