import Verif.Proof.Threads
/-
Goroutines: every function of Verif/Model/HeapPoints.lean accesses only what it is given, the package
variables, and what it makes, and it overwrites only its receiver and what it makes.
-/
set_option linter.unusedTactic false
set_option linter.unreachableTactic false
namespace Bls.HeapPoints

section
variable {α β : Type} {B : World → Mem → α → β → Prop} {W : World} {m : Mem} {p p' : Nat}

theorem Sim.bind_g1a {f : G1Affine → M α} {g : G1Affine → M β} (hp : W.rel p p')
    (H : ∀ v, Sim B W m (f v) (g v)) : Sim B W m (g1a p >>= f) (g1a p' >>= g) := by
  refine .read hp fun o o' _ hr _ => ?_
  cases hr with
  | g1a v => exact H v
  | _ => exact .panic

theorem Sim.bind_g1p {f : G1Projective → M α} {g : G1Projective → M β} (hp : W.rel p p')
    (H : ∀ v, Sim B W m (f v) (g v)) : Sim B W m (g1p p >>= f) (g1p p' >>= g) := by
  refine .read hp fun o o' _ hr _ => ?_
  cases hr with
  | g1p v => exact H v
  | _ => exact .panic

theorem Sim.bind_g2a' {f : G2Affine → M α} {g : G2Affine → M β} (hp : W.rel p p')
    (H : ∀ v, m[p]? = some (.g2a v) → (p' = 4 → v = .zero) → Sim B W m (f v) (g v)) :
    Sim B W m (g2a p >>= f) (g2a p' >>= g) := by
  refine .read hp fun o o' ho hr h4 => ?_
  cases hr with
  | g2a v => exact H v ho fun e => by have := h4 e; cases this; rfl
  | _ => exact .panic

theorem Sim.bind_g2a {f : G2Affine → M α} {g : G2Affine → M β} (hp : W.rel p p')
    (H : ∀ v, Sim B W m (f v) (g v)) : Sim B W m (g2a p >>= f) (g2a p' >>= g) := .bind_g2a' hp fun v _ _ => H v

theorem Sim.bind_g2p {f : G2Projective → M α} {g : G2Projective → M β} (hp : W.rel p p')
    (H : ∀ v, Sim B W m (f v) (g v)) : Sim B W m (g2p p >>= f) (g2p p' >>= g) := by
  refine .read hp fun o o' _ hr _ => ?_
  cases hr with
  | g2p v => exact H v
  | _ => exact .panic

theorem Sim.bind_msgs {f : List (List UInt8) → M α} {g : List (List UInt8) → M β} (hp : W.rel p p')
    (H : ∀ v, Sim B W m (f v) (g v)) : Sim B W m (msgs p >>= f) (msgs p' >>= g) := by
  refine .read hp fun o o' _ hr _ => ?_
  cases hr with
  | msgs v => exact H v
  | _ => exact .panic

theorem Sim.bind_sig1S {f : Nat → M α} {g : Nat → M β} (hp : W.rel p p')
    (H : ∀ q q', W.rel q q' → Sim B W m (f q) (g q')) : Sim B W m (sig1S p >>= f) (sig1S p' >>= g) := by
  refine .read hp fun o o' _ hr _ => ?_
  cases hr with
  | sig1 h => exact H _ _ h
  | _ => exact .panic

theorem Sim.bind_pub1P {f : Nat → M α} {g : Nat → M β} (hp : W.rel p p')
    (H : ∀ q q', W.rel q q' → Sim B W m (f q) (g q')) : Sim B W m (pub1P p >>= f) (pub1P p' >>= g) := by
  refine .read hp fun o o' _ hr _ => ?_
  cases hr with
  | pub1 h => exact H _ _ h
  | _ => exact .panic

theorem Sim.bind_sig2S {f : Nat → M α} {g : Nat → M β} (hp : W.rel p p')
    (H : ∀ q q', W.rel q q' → Sim B W m (f q) (g q')) : Sim B W m (sig2S p >>= f) (sig2S p' >>= g) := by
  refine .read hp fun o o' _ hr _ => ?_
  cases hr with
  | sig2 h => exact H _ _ h
  | _ => exact .panic

theorem Sim.bind_pub2P {f : Nat → M α} {g : Nat → M β} (hp : W.rel p p')
    (H : ∀ q q', W.rel q q' → Sim B W m (f q) (g q')) : Sim B W m (pub2P p >>= f) (pub2P p' >>= g) := by
  refine .read hp fun o o' _ hr _ => ?_
  cases hr with
  | pub2 h => exact H _ _ h
  | _ => exact .panic

theorem Sim.bind_lift {γ : Type} {o : Option γ} {f : γ → M α} {g : γ → M β} (H : ∀ v, Sim B W m (f v) (g v)) :
    Sim B W m (HeapPoints.lift o >>= f) (HeapPoints.lift o >>= g) := by
  cases o with
  | none => exact .panic
  | some v => exact H v

theorem Sim.ite {c : Prop} [Decidable c] {x x' : M α} {y y' : M β} (h : Sim B W m x y) (h' : Sim B W m x' y') :
    Sim B W m (if c then x else x') (if c then y else y') := by
  by_cases hc : c
  · rw [if_pos hc, if_pos hc]; exact h
  · rw [if_neg hc, if_neg hc]; exact h'

end

/-- The results are equal. -/
def Eql {α : Type} (_ : World) (_ : Mem) (a b : α) : Prop := a = b
/-- A pointer to a new object. -/
structure Fresh (W : World) (m : Mem) (p p' : Nat) : Prop where
  rel : W.rel p p'
  own : W.own p'
/-- A pointer to a new object, or `G2AffineZero`. -/
structure Fresh4 (W : World) (m : Mem) (p p' : Nat) : Prop where
  rel : W.rel p p'
  own : W.own p' ∨ p' = 4
/-- A pointer to a new object, or nil. -/
inductive FreshOr (W : World) (m : Mem) : Option Nat → Option Nat → Prop
  | none : FreshOr W m none none
  | some {p p' : Nat} (h : Fresh W m p p') : FreshOr W m (some p) (some p')

theorem Fresh.four {W : World} {m : Mem} {p p' : Nat} (h : Fresh W m p p') : Fresh4 W m p p' := ⟨h.1, .inl h.2⟩

section
variable {W : World} {m : Mem} {p p' q q' r r' t t' : Nat}

theorem Sim.new {o o' : Obj} (ho : ObjRel W.rel o o') : Sim Fresh W m (HeapPoints.alloc o) (HeapPoints.alloc o') :=
  .alloc ho fun _ _ _ hr hw => .ret ⟨hr, hw⟩

theorem Sim.liftS {α : Type} (o : Option α) : Sim Eql W m (HeapPoints.lift o) (HeapPoints.lift o) := by
  cases o with
  | none => exact .panic
  | some v => exact .ret rfl

theorem Sim.pure {α β : Type} {B : World → Mem → α → β → Prop} {a : α} {b : β} (h : B W m a b) :
    Sim B W m (Pure.pure a) (Pure.pure b) := .ret h

theorem Sim.pureE {α : Type} {a : α} : Sim Eql W m (Pure.pure a) (Pure.pure a) := .ret rfl

theorem Sim.four : Sim Fresh4 W m (Pure.pure aG2AffineZero) (Pure.pure aG2AffineZero) := .ret ⟨W.pkg (by decide), .inr rfl⟩

theorem Sim.new4 {o o' : Obj} (ho : ObjRel W.rel o o') : Sim Fresh4 W m (HeapPoints.alloc o) (HeapPoints.alloc o') :=
  .alloc ho fun _ _ _ hr hw => .ret ⟨hr, .inl hw⟩

theorem Sim.bindF {α β : Type} {B : World → Mem → α → β → Prop} {x y : M Nat} {f : Nat → M α} {g : Nat → M β}
    (h : Sim Fresh W m x y) (H : ∀ W' m' a b, W.Le W' → W'.rel a b → W'.own b → Sim B W' m' (f a) (g b)) :
    Sim B W m (x >>= f) (y >>= g) := h.bind fun _ _ _ _ hW hA => H _ _ _ _ hW hA.1 hA.2

theorem Sim.bind4 {α β : Type} {B : World → Mem → α → β → Prop} {x y : M Nat} {f : Nat → M α} {g : Nat → M β}
    (h : Sim Fresh4 W m x y) (H : ∀ W' m' a b, W.Le W' → W'.rel a b → (W'.own b ∨ b = 4) → Sim B W' m' (f a) (g b)) :
    Sim B W m (x >>= f) (y >>= g) := h.bind fun _ _ _ _ hW hA => H _ _ _ _ hW hA.1 hA.2

theorem Sim.bindE {α β γ : Type} {B : World → Mem → α → β → Prop} {x y : M γ} {f : γ → M α} {g : γ → M β}
    (h : Sim Eql W m x y) (H : ∀ W' m' a, W.Le W' → Sim B W' m' (f a) (g a)) :
    Sim B W m (x >>= f) (y >>= g) := h.bind fun _ _ _ _ hW hA => by cases hA; exact H _ _ _ hW

theorem Sim.set {o o' : Obj} (hp : W.rel p p') (hw : W.own p') (ho : ObjRel W.rel o o') :
    Sim Eql W m (HeapPoints.write p o) (HeapPoints.write p' o') := .write hp hw ho (.ret rfl)

/-- Use of what is known about an earlier, smaller world. -/
macro "rel" : tactic => `(tactic| first
  | assumption
  | exact World.pkg _ (by decide)
  | (refine World.Le.rel (by assumption) ?_; first
    | assumption
    | (refine World.Le.rel (by assumption) ?_; first
      | assumption
      | (refine World.Le.rel (by assumption) ?_; first
        | assumption
        | (refine World.Le.rel (by assumption) ?_; first
          | assumption
          | (refine World.Le.rel (by assumption) ?_; first
            | assumption
            | (refine World.Le.rel (by assumption) ?_; first
              | assumption
              | (refine World.Le.rel (by assumption) ?_; first
                | assumption
                | (refine World.Le.rel (by assumption) ?_; assumption)))))))))

/-- The same for what may be overwritten. -/
macro "ownt" : tactic => `(tactic| first
  | assumption
  | (refine World.Le.own (by assumption) ?_; first
    | assumption
    | (refine World.Le.own (by assumption) ?_; first
      | assumption
      | (refine World.Le.own (by assumption) ?_; first
        | assumption
        | (refine World.Le.own (by assumption) ?_; first
          | assumption
          | (refine World.Le.own (by assumption) ?_; assumption))))))

/-- One step of a function. -/
macro "sim_step" : tactic => `(tactic| first
  | (with_reducible refine Sim.bind_g1a ?_ fun _ => ?_; (· rel))
  | (with_reducible refine Sim.bind_g1p ?_ fun _ => ?_; (· rel))
  | (with_reducible refine Sim.bind_g2a ?_ fun _ => ?_; (· rel))
  | (with_reducible refine Sim.bind_g2p ?_ fun _ => ?_; (· rel))
  | (with_reducible refine Sim.bind_msgs ?_ fun _ => ?_; (· rel))
  | (with_reducible refine Sim.bind_sig1S ?_ fun _ _ _ => ?_; (· rel))
  | (with_reducible refine Sim.bind_pub1P ?_ fun _ _ _ => ?_; (· rel))
  | (with_reducible refine Sim.bind_sig2S ?_ fun _ _ _ => ?_; (· rel))
  | (with_reducible refine Sim.bind_pub2P ?_ fun _ _ _ => ?_; (· rel))
  | (with_reducible refine Sim.bind_lift fun _ => ?_)
  | (with_reducible refine Sim.ite ?_ ?_)
  | (with_reducible exact Sim.liftS _)
  | (with_reducible exact Sim.pureE)
  | (with_reducible exact Sim.four)
  | (with_reducible refine Sim.new ?_; (first
      | exact .g1a _ | exact .g1p _ | exact .g2a _ | exact .g2p _ | exact .msgs _
      | exact .sig1 (by rel) | exact .pub1 (by rel) | exact .sig2 (by rel) | exact .pub2 (by rel)))
  | (with_reducible refine Sim.new4 ?_; (first
      | exact .g1a _ | exact .g1p _ | exact .g2a _ | exact .g2p _ | exact .msgs _
      | exact .sig1 (by rel) | exact .pub1 (by rel) | exact .sig2 (by rel) | exact .pub2 (by rel)))
  | (with_reducible refine Sim.set ?_ ?_ ?_; (· rel); (· ownt); (· first
      | exact .g1a _ | exact .g1p _ | exact .g2a _ | exact .g2p _ | exact .msgs _
      | exact .sig1 (by rel) | exact .pub1 (by rel) | exact .sig2 (by rel) | exact .pub2 (by rel)))
  | (with_reducible refine Sim.bindF (Sim.new ?_) fun _ _ _ _ _ _ _ => ?_; (· exact .msgs _))
  | fail)

theorem g1aCopy_sim (h0 : W.rel p p') :
    Sim Fresh W m (HeapPoints.g1aCopy p) (HeapPoints.g1aCopy p') := by
  unfold HeapPoints.g1aCopy
  repeat' first
    | sim_step

theorem g1pCopy_sim (h0 : W.rel p p') :
    Sim Fresh W m (HeapPoints.g1pCopy p) (HeapPoints.g1pCopy p') := by
  unfold HeapPoints.g1pCopy
  repeat' first
    | sim_step

theorem g2aCopy_sim (h0 : W.rel p p') :
    Sim Fresh W m (HeapPoints.g2aCopy p) (HeapPoints.g2aCopy p') := by
  unfold HeapPoints.g2aCopy
  repeat' first
    | sim_step

theorem g2pCopy_sim (h0 : W.rel p p') :
    Sim Fresh W m (HeapPoints.g2pCopy p) (HeapPoints.g2pCopy p') := by
  unfold HeapPoints.g2pCopy
  repeat' first
    | sim_step

theorem g1aNeg_sim (h0 : W.rel p p') (hw : W.own p') :
    Sim Eql W m (HeapPoints.g1aNeg p) (HeapPoints.g1aNeg p') := by
  unfold HeapPoints.g1aNeg
  repeat' first
    | sim_step

theorem g1pNeg_sim (h0 : W.rel p p') (hw : W.own p') :
    Sim Eql W m (HeapPoints.g1pNeg p) (HeapPoints.g1pNeg p') := by
  unfold HeapPoints.g1pNeg
  repeat' first
    | sim_step

theorem g1aSetRawBytes_sim (b : List UInt8) (h0 : W.rel p p') (hw : W.own p') :
    Sim Eql W m (HeapPoints.g1aSetRawBytes p b) (HeapPoints.g1aSetRawBytes p' b) := by
  unfold HeapPoints.g1aSetRawBytes
  repeat' first
    | sim_step

theorem g1aToProjective_sim (h0 : W.rel p p') :
    Sim Fresh W m (HeapPoints.g1aToProjective p) (HeapPoints.g1aToProjective p') := by
  unfold HeapPoints.g1aToProjective
  repeat' first
    | sim_step
    | (with_reducible refine g1pCopy_sim ?_; (· rel))
    | (with_reducible refine Sim.bindF (g1pCopy_sim ?_) fun _ _ _ _ _ _ _ => ?_; (· rel))

theorem g1pToAffine_sim (h0 : W.rel p p') :
    Sim Fresh W m (HeapPoints.g1pToAffine p) (HeapPoints.g1pToAffine p') := by
  unfold HeapPoints.g1pToAffine
  repeat' first
    | sim_step
    | (with_reducible refine g1aCopy_sim ?_; (· rel))
    | (with_reducible refine Sim.bindF (g1aCopy_sim ?_) fun _ _ _ _ _ _ _ => ?_; (· rel))

theorem g1pDouble_sim (h0 : W.rel p p') :
    Sim Fresh W m (HeapPoints.g1pDouble p) (HeapPoints.g1pDouble p') := by
  unfold HeapPoints.g1pDouble
  repeat' first
    | sim_step

theorem g1pAdd_sim (h0 : W.rel p p') (h1 : W.rel q q') :
    Sim Fresh W m (HeapPoints.g1pAdd p q) (HeapPoints.g1pAdd p' q') := by
  unfold HeapPoints.g1pAdd
  repeat' first
    | sim_step

theorem g1pAddAffine_sim (h0 : W.rel p p') (h1 : W.rel q q') :
    Sim Fresh W m (HeapPoints.g1pAddAffine p q) (HeapPoints.g1pAddAffine p' q') := by
  unfold HeapPoints.g1pAddAffine
  repeat' first
    | sim_step

theorem g1aMul_sim (bit : Nat → Option Bool) (bitLen : Nat) (h0 : W.rel p p') :
    Sim Fresh W m (HeapPoints.g1aMul p bit bitLen) (HeapPoints.g1aMul p' bit bitLen) := by
  unfold HeapPoints.g1aMul
  repeat' first
    | sim_step

theorem g1pMul_sim (bit : Nat → Option Bool) (bitLen : Nat) (h0 : W.rel p p') :
    Sim Fresh W m (HeapPoints.g1pMul p bit bitLen) (HeapPoints.g1pMul p' bit bitLen) := by
  unfold HeapPoints.g1pMul
  repeat' first
    | sim_step

theorem g1aScaleByCofactor_sim (h0 : W.rel p p') :
    Sim Fresh W m (HeapPoints.g1aScaleByCofactor p) (HeapPoints.g1aScaleByCofactor p') := by
  unfold HeapPoints.g1aScaleByCofactor
  repeat' first
    | sim_step
    | (with_reducible refine g1aMul_sim _ _ ?_; (· rel))
    | (with_reducible refine Sim.bindF (g1aMul_sim _ _ ?_) fun _ _ _ _ _ _ _ => ?_; (· rel))

theorem g1aReturn_sim (v : G1Affine) :
    Sim Fresh W m (HeapPoints.g1aReturn v) (HeapPoints.g1aReturn v) := by
  unfold HeapPoints.g1aReturn
  repeat' first
    | sim_step
    | (with_reducible refine g1aCopy_sim ?_; (· rel))
    | (with_reducible refine Sim.bindF (g1aCopy_sim ?_) fun _ _ _ _ _ _ _ => ?_; (· rel))

theorem g2aSetRawBytes_sim (b : List UInt8) (h0 : W.rel p p') (hw : W.own p') :
    Sim Eql W m (HeapPoints.g2aSetRawBytes p b) (HeapPoints.g2aSetRawBytes p' b) := by
  unfold HeapPoints.g2aSetRawBytes
  repeat' first
    | sim_step

theorem g2aToProjective_sim (h0 : W.rel p p') :
    Sim Fresh W m (HeapPoints.g2aToProjective p) (HeapPoints.g2aToProjective p') := by
  unfold HeapPoints.g2aToProjective
  repeat' first
    | sim_step
    | (with_reducible refine g2pCopy_sim ?_; (· rel))
    | (with_reducible refine Sim.bindF (g2pCopy_sim ?_) fun _ _ _ _ _ _ _ => ?_; (· rel))

theorem g2pToAffine_sim (h0 : W.rel p p') :
    Sim Fresh4 W m (HeapPoints.g2pToAffine p) (HeapPoints.g2pToAffine p') := by
  unfold HeapPoints.g2pToAffine
  repeat' first
    | sim_step

theorem g2pDouble_sim (h0 : W.rel p p') :
    Sim Fresh W m (HeapPoints.g2pDouble p) (HeapPoints.g2pDouble p') := by
  unfold HeapPoints.g2pDouble
  repeat' first
    | sim_step

theorem g2pAdd_sim (h0 : W.rel p p') (h1 : W.rel q q') :
    Sim Fresh W m (HeapPoints.g2pAdd p q) (HeapPoints.g2pAdd p' q') := by
  unfold HeapPoints.g2pAdd
  repeat' first
    | sim_step

theorem g2pAddAffine_sim (h0 : W.rel p p') (h1 : W.rel q q') :
    Sim Fresh W m (HeapPoints.g2pAddAffine p q) (HeapPoints.g2pAddAffine p' q') := by
  unfold HeapPoints.g2pAddAffine
  repeat' first
    | sim_step

theorem g2aMul_sim (bit : Nat → Option Bool) (bitLen : Nat) (h0 : W.rel p p') :
    Sim Fresh W m (HeapPoints.g2aMul p bit bitLen) (HeapPoints.g2aMul p' bit bitLen) := by
  unfold HeapPoints.g2aMul
  repeat' first
    | sim_step

theorem g2pMul_sim (bit : Nat → Option Bool) (bitLen : Nat) (h0 : W.rel p p') :
    Sim Fresh W m (HeapPoints.g2pMul p bit bitLen) (HeapPoints.g2pMul p' bit bitLen) := by
  unfold HeapPoints.g2pMul
  repeat' first
    | sim_step

theorem g2aMulBig_sim (b : Nat) (h0 : W.rel p p') :
    Sim Fresh W m (HeapPoints.g2aMulBig p b) (HeapPoints.g2aMulBig p' b) := by
  unfold HeapPoints.g2aMulBig
  repeat' first
    | sim_step
    | (with_reducible refine g2aMul_sim _ _ ?_; (· rel))
    | (with_reducible refine Sim.bindF (g2aMul_sim _ _ ?_) fun _ _ _ _ _ _ _ => ?_; (· rel))

theorem g2aScaleByCofactor_sim (h0 : W.rel p p') :
    Sim Fresh W m (HeapPoints.g2aScaleByCofactor p) (HeapPoints.g2aScaleByCofactor p') := by
  unfold HeapPoints.g2aScaleByCofactor
  repeat' first
    | sim_step
    | (with_reducible refine g2aMulBig_sim _ ?_; (· rel))
    | (with_reducible refine Sim.bindF (g2aMulBig_sim _ ?_) fun _ _ _ _ _ _ _ => ?_; (· rel))

theorem g2aReturn_sim (v : G2Affine) :
    Sim Fresh W m (HeapPoints.g2aReturn v) (HeapPoints.g2aReturn v) := by
  unfold HeapPoints.g2aReturn
  repeat' first
    | sim_step
    | (with_reducible refine g2aCopy_sim ?_; (· rel))
    | (with_reducible refine Sim.bindF (g2aCopy_sim ?_) fun _ _ _ _ _ _ _ => ?_; (· rel))

theorem orNil_sim {α : Type} {f : α → M Nat} (H : ∀ v (m : Mem), Sim Fresh W m (f v) (f v)) (o : Option α) :
    Sim FreshOr W m (orNil f o) (orNil f o) := by
  cases o with
  | none => exact .ret .none
  | some v => exact Sim.bind (H v m) fun _ _ _ _ _ h => .ret (.some h)

theorem decompressG1Unchecked_sim (b : List UInt8) :
    Sim FreshOr W m (HeapPoints.decompressG1Unchecked b) (HeapPoints.decompressG1Unchecked b) := by
  unfold HeapPoints.decompressG1Unchecked; exact orNil_sim (fun v _ => by repeat' first
    | sim_step
    | (with_reducible refine g1aReturn_sim _)
    | (with_reducible refine Sim.bindF (g1aReturn_sim _) fun _ _ _ _ _ _ _ => ?_)) _

theorem decompressG1_sim (b : List UInt8) :
    Sim FreshOr W m (HeapPoints.decompressG1 b) (HeapPoints.decompressG1 b) := by
  unfold HeapPoints.decompressG1; exact orNil_sim (fun v _ => by repeat' first
    | sim_step
    | (with_reducible refine g1aReturn_sim _)
    | (with_reducible refine Sim.bindF (g1aReturn_sim _) fun _ _ _ _ _ _ _ => ?_)) _

theorem getG1PointFromX_sim (x : FQ) (g : Bool) :
    Sim FreshOr W m (HeapPoints.getG1PointFromX x g) (HeapPoints.getG1PointFromX x g) := by
  unfold HeapPoints.getG1PointFromX; exact orNil_sim (fun v _ => by repeat' first
    | sim_step) _

theorem decompressG2Unchecked_sim (b : List UInt8) :
    Sim FreshOr W m (HeapPoints.decompressG2Unchecked b) (HeapPoints.decompressG2Unchecked b) := by
  unfold HeapPoints.decompressG2Unchecked; exact orNil_sim (fun v _ => by repeat' first
    | sim_step
    | (with_reducible refine g2aReturn_sim _)
    | (with_reducible refine Sim.bindF (g2aReturn_sim _) fun _ _ _ _ _ _ _ => ?_)) _

theorem decompressG2_sim (b : List UInt8) :
    Sim FreshOr W m (HeapPoints.decompressG2 b) (HeapPoints.decompressG2 b) := by
  unfold HeapPoints.decompressG2; exact orNil_sim (fun v _ => by repeat' first
    | sim_step
    | (with_reducible refine g2aReturn_sim _)
    | (with_reducible refine Sim.bindF (g2aReturn_sim _) fun _ _ _ _ _ _ _ => ?_)) _

theorem getG2PointFromX_sim (x : FQ2) (g : Bool) :
    Sim FreshOr W m (HeapPoints.getG2PointFromX x g) (HeapPoints.getG2PointFromX x g) := by
  unfold HeapPoints.getG2PointFromX; exact orNil_sim (fun v _ => by repeat' first
    | sim_step) _

theorem swEncodeG2_sim (t : FQ2) :
    Sim FreshOr W m (HeapPoints.swEncodeG2 t) (HeapPoints.swEncodeG2 t) := by
  unfold HeapPoints.swEncodeG2; exact orNil_sim (fun v _ => by repeat' first
    | sim_step
    | (with_reducible refine g2aReturn_sim _)
    | (with_reducible refine Sim.bindF (g2aReturn_sim _) fun _ _ _ _ _ _ _ => ?_)) _

theorem hashG2WithDomain_sim (sha : List UInt8 → List UInt8) (x d : List UInt8) :
    Sim Fresh W m (HeapPoints.hashG2WithDomain sha x d) (HeapPoints.hashG2WithDomain sha x d) := by
  unfold HeapPoints.hashG2WithDomain
  repeat' first
    | sim_step

theorem hashG1_sim (sha : List UInt8 → List UInt8) (x : List UInt8) :
    Sim Fresh W m (HeapPoints.hashG1 sha x) (HeapPoints.hashG1 sha x) := by
  unfold HeapPoints.hashG1
  repeat' first
    | sim_step
    | (with_reducible refine g1aReturn_sim _)
    | (with_reducible refine Sim.bindF (g1aReturn_sim _) fun _ _ _ _ _ _ _ => ?_)

theorem hashG2_sim (sha : List UInt8 → List UInt8) (x : List UInt8) :
    Sim Fresh4 W m (HeapPoints.hashG2 sha x) (HeapPoints.hashG2 sha x) := by
  unfold HeapPoints.hashG2
  repeat' first
    | sim_step

theorem pairing_sim (h0 : W.rel p p') (h1 : W.rel q q') :
    Sim Eql W m (HeapPoints.pairing p q) (HeapPoints.pairing p' q') := by
  unfold HeapPoints.pairing
  repeat' first
    | sim_step
    | (with_reducible refine g1pToAffine_sim ?_; (· rel))
    | (with_reducible refine Sim.bindF (g1pToAffine_sim ?_) fun _ _ _ _ _ _ _ => ?_; (· rel))
    | (with_reducible refine g2pToAffine_sim ?_; (· rel))
    | (with_reducible refine Sim.bind4 (g2pToAffine_sim ?_) fun _ _ _ _ _ _ _ => ?_; (· rel))

theorem compareTwoPairings_sim (h0 : W.rel p p') (h1 : W.rel q q') (h2 : W.rel r r') (h3 : W.rel t t') :
    Sim Eql W m (HeapPoints.compareTwoPairings p q r t) (HeapPoints.compareTwoPairings p' q' r' t') := by
  unfold HeapPoints.compareTwoPairings
  repeat' first
    | sim_step
    | (with_reducible refine g1pCopy_sim ?_; (· rel))
    | (with_reducible refine Sim.bindF (g1pCopy_sim ?_) fun _ _ _ _ _ _ _ => ?_; (· rel))
    | (with_reducible refine g1pNeg_sim ?_ ?_; (· rel); (· ownt))
    | (with_reducible refine Sim.bindE (g1pNeg_sim ?_ ?_) fun _ _ _ _ => ?_; (· rel); (· ownt))
    | (with_reducible refine g1pToAffine_sim ?_; (· rel))
    | (with_reducible refine Sim.bindF (g1pToAffine_sim ?_) fun _ _ _ _ _ _ _ => ?_; (· rel))
    | (with_reducible refine g2pToAffine_sim ?_; (· rel))
    | (with_reducible refine Sim.bind4 (g2pToAffine_sim ?_) fun _ _ _ _ _ _ _ => ?_; (· rel))

theorem G1Pubs.sigSerialize_sim (h0 : W.rel p p') :
    Sim Eql W m (G1Pubs.sigSerialize p) (G1Pubs.sigSerialize p') := by
  unfold G1Pubs.sigSerialize
  repeat' first
    | sim_step
    | (with_reducible refine g2pToAffine_sim ?_; (· rel))
    | (with_reducible refine Sim.bind4 (g2pToAffine_sim ?_) fun _ _ _ _ _ _ _ => ?_; (· rel))

theorem G1Pubs.sigGetPoint_sim (h0 : W.rel p p') :
    Sim Fresh W m (G1Pubs.sigGetPoint p) (G1Pubs.sigGetPoint p') := by
  unfold G1Pubs.sigGetPoint
  repeat' first
    | sim_step
    | (with_reducible refine g2pCopy_sim ?_; (· rel))
    | (with_reducible refine Sim.bindF (g2pCopy_sim ?_) fun _ _ _ _ _ _ _ => ?_; (· rel))

theorem G1Pubs.newSignatureFromG2_sim (h0 : W.rel p p') :
    Sim Fresh W m (G1Pubs.newSignatureFromG2 p) (G1Pubs.newSignatureFromG2 p') := by
  unfold G1Pubs.newSignatureFromG2
  repeat' first
    | sim_step
    | (with_reducible refine g2aToProjective_sim ?_; (· rel))
    | (with_reducible refine Sim.bindF (g2aToProjective_sim ?_) fun _ _ _ _ _ _ _ => ?_; (· rel))

theorem G1Pubs.pubGetPoint_sim (h0 : W.rel p p') :
    Sim Fresh W m (G1Pubs.pubGetPoint p) (G1Pubs.pubGetPoint p') := by
  unfold G1Pubs.pubGetPoint
  repeat' first
    | sim_step
    | (with_reducible refine g1pCopy_sim ?_; (· rel))
    | (with_reducible refine Sim.bindF (g1pCopy_sim ?_) fun _ _ _ _ _ _ _ => ?_; (· rel))

theorem G1Pubs.pubSerialize_sim (h0 : W.rel p p') :
    Sim Eql W m (G1Pubs.pubSerialize p) (G1Pubs.pubSerialize p') := by
  unfold G1Pubs.pubSerialize
  repeat' first
    | sim_step
    | (with_reducible refine g1pToAffine_sim ?_; (· rel))
    | (with_reducible refine Sim.bindF (g1pToAffine_sim ?_) fun _ _ _ _ _ _ _ => ?_; (· rel))

theorem G1Pubs.newPublicKeyFromG1_sim (h0 : W.rel p p') :
    Sim Fresh W m (G1Pubs.newPublicKeyFromG1 p) (G1Pubs.newPublicKeyFromG1 p') := by
  unfold G1Pubs.newPublicKeyFromG1
  repeat' first
    | sim_step
    | (with_reducible refine g1aToProjective_sim ?_; (· rel))
    | (with_reducible refine Sim.bindF (g1aToProjective_sim ?_) fun _ _ _ _ _ _ _ => ?_; (· rel))

theorem G1Pubs.pubEquals_sim (h0 : W.rel p p') (h1 : W.rel q q') :
    Sim Eql W m (G1Pubs.pubEquals p q) (G1Pubs.pubEquals p' q') := by
  unfold G1Pubs.pubEquals
  repeat' first
    | sim_step

theorem G1Pubs.sigCopy_sim (h0 : W.rel p p') :
    Sim Fresh W m (G1Pubs.sigCopy p) (G1Pubs.sigCopy p') := by
  unfold G1Pubs.sigCopy
  repeat' first
    | sim_step
    | (with_reducible refine g2pCopy_sim ?_; (· rel))
    | (with_reducible refine Sim.bindF (g2pCopy_sim ?_) fun _ _ _ _ _ _ _ => ?_; (· rel))

theorem G1Pubs.pubCopy_sim (h0 : W.rel p p') :
    Sim Fresh W m (G1Pubs.pubCopy p) (G1Pubs.pubCopy p') := by
  unfold G1Pubs.pubCopy
  repeat' first
    | sim_step
    | (with_reducible refine g1pCopy_sim ?_; (· rel))
    | (with_reducible refine Sim.bindF (g1pCopy_sim ?_) fun _ _ _ _ _ _ _ => ?_; (· rel))

theorem G1Pubs.deserializeSignature_sim (b : List UInt8) :
    Sim FreshOr W m (G1Pubs.deserializeSignature b) (G1Pubs.deserializeSignature b) := by
  unfold G1Pubs.deserializeSignature
  refine Sim.bind (decompressG2_sim _) fun W' m' a b hW h => ?_
  cases h with
  | none => exact .ret .none
  | some h => exact Sim.bind (G1Pubs.newSignatureFromG2_sim h.1) fun _ _ _ _ _ h' => .ret (.some h')

theorem G1Pubs.deserializePublicKey_sim (b : List UInt8) :
    Sim FreshOr W m (G1Pubs.deserializePublicKey b) (G1Pubs.deserializePublicKey b) := by
  unfold G1Pubs.deserializePublicKey
  refine Sim.bind (decompressG1_sim _) fun W' m' a b hW h => ?_
  cases h with
  | none => exact .ret .none
  | some h => exact Sim.bind (G1Pubs.newPublicKeyFromG1_sim h.1) fun _ _ _ _ _ h' => .ret (.some h')

theorem G1Pubs.sign_sim (sha : List UInt8 → List UInt8) (x : List UInt8) (f : FR) :
    Sim Fresh W m (G1Pubs.sign sha x f) (G1Pubs.sign sha x f) := by
  unfold G1Pubs.sign
  repeat' first
    | sim_step
    | (with_reducible refine g2aMul_sim _ _ ?_; (· rel))
    | (with_reducible refine Sim.bindF (g2aMul_sim _ _ ?_) fun _ _ _ _ _ _ _ => ?_; (· rel))
    | (with_reducible refine hashG2_sim _ _)
    | (with_reducible refine Sim.bind4 (hashG2_sim _ _) fun _ _ _ _ _ _ _ => ?_)

theorem G1Pubs.signWithDomain_sim (sha : List UInt8 → List UInt8) (x : List UInt8) (f : FR) (d : List UInt8) :
    Sim Fresh W m (G1Pubs.signWithDomain sha x f d) (G1Pubs.signWithDomain sha x f d) := by
  unfold G1Pubs.signWithDomain
  repeat' first
    | sim_step
    | (with_reducible refine g2pMul_sim _ _ ?_; (· rel))
    | (with_reducible refine Sim.bindF (g2pMul_sim _ _ ?_) fun _ _ _ _ _ _ _ => ?_; (· rel))
    | (with_reducible refine hashG2WithDomain_sim _ _ _)
    | (with_reducible refine Sim.bindF (hashG2WithDomain_sim _ _ _) fun _ _ _ _ _ _ _ => ?_)

theorem G1Pubs.privToPub_sim (f : FR) :
    Sim Fresh W m (G1Pubs.privToPub f) (G1Pubs.privToPub f) := by
  unfold G1Pubs.privToPub
  repeat' first
    | sim_step
    | (with_reducible refine g1aMul_sim _ _ ?_; (· rel))
    | (with_reducible refine Sim.bindF (g1aMul_sim _ _ ?_) fun _ _ _ _ _ _ _ => ?_; (· rel))

theorem G1Pubs.verify_sim (sha : List UInt8 → List UInt8) (x : List UInt8) (h0 : W.rel p p') (h1 : W.rel q q') :
    Sim Eql W m (G1Pubs.verify sha x p q) (G1Pubs.verify sha x p' q') := by
  unfold G1Pubs.verify
  repeat' first
    | sim_step
    | (with_reducible refine hashG2_sim _ _)
    | (with_reducible refine Sim.bind4 (hashG2_sim _ _) fun _ _ _ _ _ _ _ => ?_)
    | (with_reducible refine compareTwoPairings_sim ?_ ?_ ?_ ?_; (· rel); (· rel); (· rel); (· rel))
    | (with_reducible refine Sim.bindE (compareTwoPairings_sim ?_ ?_ ?_ ?_) fun _ _ _ _ => ?_; (· rel); (· rel); (· rel); (· rel))
    | (with_reducible refine g2aToProjective_sim ?_; (· rel))
    | (with_reducible refine Sim.bindF (g2aToProjective_sim ?_) fun _ _ _ _ _ _ _ => ?_; (· rel))

theorem G1Pubs.verifyWithDomain_sim (sha : List UInt8 → List UInt8) (x : List UInt8) (d : List UInt8) (h0 : W.rel p p') (h1 : W.rel q q') :
    Sim Eql W m (G1Pubs.verifyWithDomain sha x p q d) (G1Pubs.verifyWithDomain sha x p' q' d) := by
  unfold G1Pubs.verifyWithDomain
  repeat' first
    | sim_step
    | (with_reducible refine hashG2WithDomain_sim _ _ _)
    | (with_reducible refine Sim.bindF (hashG2WithDomain_sim _ _ _) fun _ _ _ _ _ _ _ => ?_)
    | (with_reducible refine compareTwoPairings_sim ?_ ?_ ?_ ?_; (· rel); (· rel); (· rel); (· rel))
    | (with_reducible refine Sim.bindE (compareTwoPairings_sim ?_ ?_ ?_ ?_) fun _ _ _ _ => ?_; (· rel); (· rel); (· rel); (· rel))
    | (with_reducible refine g2aToProjective_sim ?_; (· rel))
    | (with_reducible refine Sim.bindF (g2aToProjective_sim ?_) fun _ _ _ _ _ _ _ => ?_; (· rel))
    | (with_reducible refine g2pToAffine_sim ?_; (· rel))
    | (with_reducible refine Sim.bind4 (g2pToAffine_sim ?_) fun _ _ _ _ _ _ _ => ?_; (· rel))

theorem G1Pubs.newAggregateSignature_sim :
    Sim Fresh W m G1Pubs.newAggregateSignature G1Pubs.newAggregateSignature := by
  unfold G1Pubs.newAggregateSignature
  repeat' first
    | sim_step
    | (with_reducible refine g2pCopy_sim ?_; (· rel))
    | (with_reducible refine Sim.bindF (g2pCopy_sim ?_) fun _ _ _ _ _ _ _ => ?_; (· rel))

theorem G1Pubs.newAggregatePubkey_sim :
    Sim Fresh W m G1Pubs.newAggregatePubkey G1Pubs.newAggregatePubkey := by
  unfold G1Pubs.newAggregatePubkey
  repeat' first
    | sim_step
    | (with_reducible refine g1pCopy_sim ?_; (· rel))
    | (with_reducible refine Sim.bindF (g1pCopy_sim ?_) fun _ _ _ _ _ _ _ => ?_; (· rel))

theorem G1Pubs.sigAggregate_sim (h0 : W.rel p p') (hw : W.own p') (h1 : W.rel q q') :
    Sim Eql W m (G1Pubs.sigAggregate p q) (G1Pubs.sigAggregate p' q') := by
  unfold G1Pubs.sigAggregate
  repeat' first
    | sim_step
    | (with_reducible refine g2pAdd_sim ?_ ?_; (· rel); (· rel))
    | (with_reducible refine Sim.bindF (g2pAdd_sim ?_ ?_) fun _ _ _ _ _ _ _ => ?_; (· rel); (· rel))

theorem G1Pubs.pubAggregate_sim (h0 : W.rel p p') (hw : W.own p') (h1 : W.rel q q') :
    Sim Eql W m (G1Pubs.pubAggregate p q) (G1Pubs.pubAggregate p' q') := by
  unfold G1Pubs.pubAggregate
  repeat' first
    | sim_step
    | (with_reducible refine g1pAdd_sim ?_ ?_; (· rel); (· rel))
    | (with_reducible refine Sim.bindF (g1pAdd_sim ?_ ?_) fun _ _ _ _ _ _ _ => ?_; (· rel); (· rel))

theorem G1Pubs.aggregateSignaturesLoop_sim : ∀ {l l' : List Nat} {W : World} {m : Mem}, List.Forall₂ W.rel l l' → W.rel p p' →
    W.own p' → Sim Eql W m (G1Pubs.aggregateSignaturesLoop p l) (G1Pubs.aggregateSignaturesLoop p' l')
  | _, _, W, m, .nil, _, _ => .ret rfl
  | _, _, W, m, .cons hab hl, h, hw => by
    rw [G1Pubs.aggregateSignaturesLoop, G1Pubs.aggregateSignaturesLoop]
    exact Sim.bind (G1Pubs.sigAggregate_sim h hw hab) fun W' m' _ _ hW _ =>
      G1Pubs.aggregateSignaturesLoop_sim (hl.imp fun _ _ => hW.rel) (hW.rel h) (hW.own hw)

theorem G1Pubs.aggregateSignatures_sim {l l' : List Nat} (hl : List.Forall₂ W.rel l l') :
    Sim Fresh W m (G1Pubs.aggregateSignatures l) (G1Pubs.aggregateSignatures l') := by
  unfold G1Pubs.aggregateSignatures
  exact Sim.bind G1Pubs.newAggregateSignature_sim fun W' m' a b hW h =>
    Sim.bind (G1Pubs.aggregateSignaturesLoop_sim (hl.imp fun _ _ => hW.rel) h.1 h.2) fun W'' m'' _ _ hW' _ =>
      .ret ⟨hW'.rel h.1, hW'.own h.2⟩

theorem G1Pubs.aggregatePublicKeysLoop_sim : ∀ {l l' : List Nat} {W : World} {m : Mem}, List.Forall₂ W.rel l l' → W.rel p p' →
    W.own p' → Sim Eql W m (G1Pubs.aggregatePublicKeysLoop p l) (G1Pubs.aggregatePublicKeysLoop p' l')
  | _, _, W, m, .nil, _, _ => .ret rfl
  | _, _, W, m, .cons hab hl, h, hw => by
    rw [G1Pubs.aggregatePublicKeysLoop, G1Pubs.aggregatePublicKeysLoop]
    exact Sim.bind (G1Pubs.pubAggregate_sim h hw hab) fun W' m' _ _ hW _ =>
      G1Pubs.aggregatePublicKeysLoop_sim (hl.imp fun _ _ => hW.rel) (hW.rel h) (hW.own hw)

theorem G1Pubs.aggregatePublicKeys_sim {l l' : List Nat} (hl : List.Forall₂ W.rel l l') :
    Sim Fresh W m (G1Pubs.aggregatePublicKeys l) (G1Pubs.aggregatePublicKeys l') := by
  unfold G1Pubs.aggregatePublicKeys
  exact Sim.bind G1Pubs.newAggregatePubkey_sim fun W' m' a b hW h =>
    Sim.bind (G1Pubs.aggregatePublicKeysLoop_sim (hl.imp fun _ _ => hW.rel) h.1 h.2) fun W'' m'' _ _ hW' _ =>
      .ret ⟨hW'.rel h.1, hW'.own h.2⟩

theorem G1Pubs.pairingProduct_sim (sha : List UInt8 → List UInt8) : ∀ {l l' : List Nat} {W : World} {m : Mem}
    (ms : List (List UInt8)) (rhs : FQ12), List.Forall₂ W.rel l l' →
    Sim Eql W m (G1Pubs.pairingProduct sha l ms rhs) (G1Pubs.pairingProduct sha l' ms rhs)
  | _, _, W, m, ms, rhs, .nil => by cases ms <;> exact .ret rfl
  | _, _, W, m, [], rhs, .cons _ _ => .ret rfl
  | _, _, W, m, x :: ms, rhs, .cons hab hl => by
    rw [G1Pubs.pairingProduct, G1Pubs.pairingProduct]
    repeat' first
    | sim_step
    | (with_reducible refine hashG2_sim _ _)
    | (with_reducible refine Sim.bind4 (hashG2_sim _ _) fun _ _ _ _ _ _ _ => ?_)
    | (with_reducible refine pairing_sim ?_ ?_; (· rel); (· rel))
    | (with_reducible refine Sim.bindE (pairing_sim ?_ ?_) fun _ _ _ _ => ?_; (· rel); (· rel))
    | (with_reducible refine g2aToProjective_sim ?_; (· rel))
    | (with_reducible refine Sim.bindF (g2aToProjective_sim ?_) fun _ _ _ _ _ _ _ => ?_; (· rel))
    refine G1Pubs.pairingProduct_sim sha _ _ (hl.imp fun _ _ h => ?_)
    rel

theorem G1Pubs.pairingProductWithDomain_sim (sha : List UInt8 → List UInt8) (d : List UInt8) : ∀ {l l' : List Nat} {W : World} {m : Mem}
    (ms : List (List UInt8)) (rhs : FQ12), List.Forall₂ W.rel l l' →
    Sim Eql W m (G1Pubs.pairingProductWithDomain sha d l ms rhs) (G1Pubs.pairingProductWithDomain sha d l' ms rhs)
  | _, _, W, m, ms, rhs, .nil => by cases ms <;> exact .ret rfl
  | _, _, W, m, [], rhs, .cons _ _ => .ret rfl
  | _, _, W, m, x :: ms, rhs, .cons hab hl => by
    rw [G1Pubs.pairingProductWithDomain, G1Pubs.pairingProductWithDomain]
    repeat' first
    | sim_step
    | (with_reducible refine hashG2WithDomain_sim _ _ _)
    | (with_reducible refine Sim.bindF (hashG2WithDomain_sim _ _ _) fun _ _ _ _ _ _ _ => ?_)
    | (with_reducible refine pairing_sim ?_ ?_; (· rel); (· rel))
    | (with_reducible refine Sim.bindE (pairing_sim ?_ ?_) fun _ _ _ _ => ?_; (· rel); (· rel))
    | (with_reducible refine g2aToProjective_sim ?_; (· rel))
    | (with_reducible refine Sim.bindF (g2aToProjective_sim ?_) fun _ _ _ _ _ _ _ => ?_; (· rel))
    | (with_reducible refine g2pToAffine_sim ?_; (· rel))
    | (with_reducible refine Sim.bind4 (g2pToAffine_sim ?_) fun _ _ _ _ _ _ _ => ?_; (· rel))
    refine G1Pubs.pairingProductWithDomain_sim sha d _ _ (hl.imp fun _ _ h => ?_)
    rel

theorem G1Pubs.sortInPlace_sim (h0 : W.rel p p') (hw : W.own p') :
    Sim Eql W m (G1Pubs.sortInPlace p) (G1Pubs.sortInPlace p') := by
  unfold G1Pubs.sortInPlace
  repeat' first
    | sim_step

theorem G1Pubs.verifyAggregate_sim (sha : List UInt8 → List UInt8) {l l' : List Nat} (hg : W.rel p p')
    (hl : List.Forall₂ W.rel l l') (hm : W.rel q q') :
    Sim Eql W m (G1Pubs.verifyAggregate sha p l q) (G1Pubs.verifyAggregate sha p' l' q') := by
  unfold G1Pubs.verifyAggregate
  rw [hl.length_eq]
  repeat' first
    | sim_step
    | (with_reducible refine G1Pubs.sortInPlace_sim ?_ ?_; (· rel); (· ownt))
    | (with_reducible refine Sim.bindE (G1Pubs.sortInPlace_sim ?_ ?_) fun _ _ _ _ => ?_; (· rel); (· ownt))
    | (with_reducible refine pairing_sim ?_ ?_; (· rel); (· rel))
    | (with_reducible refine Sim.bindE (pairing_sim ?_ ?_) fun _ _ _ _ => ?_; (· rel); (· rel))
  refine Sim.bindE (G1Pubs.pairingProduct_sim sha _ _ (hl.imp fun _ _ h => ?_)) fun _ _ _ _ => ?_
  · rel
  · exact Sim.liftS _

theorem G1Pubs.verifyAggregateCommon_sim (sha : List UInt8 → List UInt8) (x : List UInt8) {l l' : List Nat} (hg : W.rel p p')
    (hl : List.Forall₂ W.rel l l') :
    Sim Eql W m (G1Pubs.verifyAggregateCommon sha p l x) (G1Pubs.verifyAggregateCommon sha p' l' x) := by
  unfold G1Pubs.verifyAggregateCommon
  exact Sim.bind (G1Pubs.aggregatePublicKeys_sim hl) fun W' m' a b hW h => G1Pubs.verify_sim sha x h.1 (hW.rel hg)

theorem G1Pubs.verifyAggregateWithDomain_sim (sha : List UInt8 → List UInt8) (d : List UInt8) {l l' : List Nat} (hg : W.rel p p')
    (hl : List.Forall₂ W.rel l l') (hm : W.rel q q') :
    Sim Eql W m (G1Pubs.verifyAggregateWithDomain sha p l q d) (G1Pubs.verifyAggregateWithDomain sha p' l' q' d) := by
  unfold G1Pubs.verifyAggregateWithDomain
  rw [hl.length_eq]
  repeat' first
    | sim_step
    | (with_reducible refine pairing_sim ?_ ?_; (· rel); (· rel))
    | (with_reducible refine Sim.bindE (pairing_sim ?_ ?_) fun _ _ _ _ => ?_; (· rel); (· rel))
  refine Sim.bindE (G1Pubs.pairingProductWithDomain_sim sha d _ _ (hl.imp fun _ _ h => ?_)) fun _ _ _ _ => ?_
  · rel
  · exact Sim.liftS _

theorem G1Pubs.verifyAggregateCommonWithDomain_sim (sha : List UInt8 → List UInt8) (x : List UInt8) (d : List UInt8) {l l' : List Nat} (hg : W.rel p p')
    (hl : List.Forall₂ W.rel l l') :
    Sim Eql W m (G1Pubs.verifyAggregateCommonWithDomain sha p l x d) (G1Pubs.verifyAggregateCommonWithDomain sha p' l' x d) := by
  unfold G1Pubs.verifyAggregateCommonWithDomain
  exact Sim.bind (G1Pubs.aggregatePublicKeys_sim hl) fun W' m' a b hW h => G1Pubs.verifyWithDomain_sim sha x d h.1 (hW.rel hg)

theorem G2Pubs.sigSerialize_sim (h0 : W.rel p p') :
    Sim Eql W m (G2Pubs.sigSerialize p) (G2Pubs.sigSerialize p') := by
  unfold G2Pubs.sigSerialize
  repeat' first
    | sim_step
    | (with_reducible refine g1pToAffine_sim ?_; (· rel))
    | (with_reducible refine Sim.bindF (g1pToAffine_sim ?_) fun _ _ _ _ _ _ _ => ?_; (· rel))

theorem G2Pubs.sigGetPoint_sim (h0 : W.rel p p') :
    Sim Fresh W m (G2Pubs.sigGetPoint p) (G2Pubs.sigGetPoint p') := by
  unfold G2Pubs.sigGetPoint
  repeat' first
    | sim_step
    | (with_reducible refine g1pCopy_sim ?_; (· rel))
    | (with_reducible refine Sim.bindF (g1pCopy_sim ?_) fun _ _ _ _ _ _ _ => ?_; (· rel))

theorem G2Pubs.newSignatureFromG1_sim (h0 : W.rel p p') :
    Sim Fresh W m (G2Pubs.newSignatureFromG1 p) (G2Pubs.newSignatureFromG1 p') := by
  unfold G2Pubs.newSignatureFromG1
  repeat' first
    | sim_step
    | (with_reducible refine g1aToProjective_sim ?_; (· rel))
    | (with_reducible refine Sim.bindF (g1aToProjective_sim ?_) fun _ _ _ _ _ _ _ => ?_; (· rel))

theorem G2Pubs.pubGetPoint_sim (h0 : W.rel p p') :
    Sim Fresh W m (G2Pubs.pubGetPoint p) (G2Pubs.pubGetPoint p') := by
  unfold G2Pubs.pubGetPoint
  repeat' first
    | sim_step
    | (with_reducible refine g2pCopy_sim ?_; (· rel))
    | (with_reducible refine Sim.bindF (g2pCopy_sim ?_) fun _ _ _ _ _ _ _ => ?_; (· rel))

theorem G2Pubs.pubSerialize_sim (h0 : W.rel p p') :
    Sim Eql W m (G2Pubs.pubSerialize p) (G2Pubs.pubSerialize p') := by
  unfold G2Pubs.pubSerialize
  repeat' first
    | sim_step
    | (with_reducible refine g2pToAffine_sim ?_; (· rel))
    | (with_reducible refine Sim.bind4 (g2pToAffine_sim ?_) fun _ _ _ _ _ _ _ => ?_; (· rel))

theorem G2Pubs.newPublicKeyFromG2_sim (h0 : W.rel p p') :
    Sim Fresh W m (G2Pubs.newPublicKeyFromG2 p) (G2Pubs.newPublicKeyFromG2 p') := by
  unfold G2Pubs.newPublicKeyFromG2
  repeat' first
    | sim_step
    | (with_reducible refine g2aToProjective_sim ?_; (· rel))
    | (with_reducible refine Sim.bindF (g2aToProjective_sim ?_) fun _ _ _ _ _ _ _ => ?_; (· rel))

theorem G2Pubs.pubEquals_sim (h0 : W.rel p p') (h1 : W.rel q q') :
    Sim Eql W m (G2Pubs.pubEquals p q) (G2Pubs.pubEquals p' q') := by
  unfold G2Pubs.pubEquals
  repeat' first
    | sim_step

theorem G2Pubs.sigCopy_sim (h0 : W.rel p p') :
    Sim Fresh W m (G2Pubs.sigCopy p) (G2Pubs.sigCopy p') := by
  unfold G2Pubs.sigCopy
  repeat' first
    | sim_step
    | (with_reducible refine g1pCopy_sim ?_; (· rel))
    | (with_reducible refine Sim.bindF (g1pCopy_sim ?_) fun _ _ _ _ _ _ _ => ?_; (· rel))

theorem G2Pubs.pubCopy_sim (h0 : W.rel p p') :
    Sim Fresh W m (G2Pubs.pubCopy p) (G2Pubs.pubCopy p') := by
  unfold G2Pubs.pubCopy
  repeat' first
    | sim_step
    | (with_reducible refine g2pCopy_sim ?_; (· rel))
    | (with_reducible refine Sim.bindF (g2pCopy_sim ?_) fun _ _ _ _ _ _ _ => ?_; (· rel))

theorem G2Pubs.deserializeSignature_sim (b : List UInt8) :
    Sim FreshOr W m (G2Pubs.deserializeSignature b) (G2Pubs.deserializeSignature b) := by
  unfold G2Pubs.deserializeSignature
  refine Sim.bind (decompressG1_sim _) fun W' m' a b hW h => ?_
  cases h with
  | none => exact .ret .none
  | some h => exact Sim.bind (G2Pubs.newSignatureFromG1_sim h.1) fun _ _ _ _ _ h' => .ret (.some h')

theorem G2Pubs.deserializePublicKey_sim (b : List UInt8) :
    Sim FreshOr W m (G2Pubs.deserializePublicKey b) (G2Pubs.deserializePublicKey b) := by
  unfold G2Pubs.deserializePublicKey
  refine Sim.bind (decompressG2_sim _) fun W' m' a b hW h => ?_
  cases h with
  | none => exact .ret .none
  | some h => exact Sim.bind (G2Pubs.newPublicKeyFromG2_sim h.1) fun _ _ _ _ _ h' => .ret (.some h')

theorem G2Pubs.sign_sim (sha : List UInt8 → List UInt8) (x : List UInt8) (f : FR) :
    Sim Fresh W m (G2Pubs.sign sha x f) (G2Pubs.sign sha x f) := by
  unfold G2Pubs.sign
  repeat' first
    | sim_step
    | (with_reducible refine g1aMul_sim _ _ ?_; (· rel))
    | (with_reducible refine Sim.bindF (g1aMul_sim _ _ ?_) fun _ _ _ _ _ _ _ => ?_; (· rel))
    | (with_reducible refine hashG1_sim _ _)
    | (with_reducible refine Sim.bindF (hashG1_sim _ _) fun _ _ _ _ _ _ _ => ?_)

theorem G2Pubs.privToPub_sim (f : FR) :
    Sim Fresh W m (G2Pubs.privToPub f) (G2Pubs.privToPub f) := by
  unfold G2Pubs.privToPub
  repeat' first
    | sim_step
    | (with_reducible refine g2aMul_sim _ _ ?_; (· rel))
    | (with_reducible refine Sim.bindF (g2aMul_sim _ _ ?_) fun _ _ _ _ _ _ _ => ?_; (· rel))

theorem G2Pubs.verify_sim (sha : List UInt8 → List UInt8) (x : List UInt8) (h0 : W.rel p p') (h1 : W.rel q q') :
    Sim Eql W m (G2Pubs.verify sha x p q) (G2Pubs.verify sha x p' q') := by
  unfold G2Pubs.verify
  repeat' first
    | sim_step
    | (with_reducible refine hashG1_sim _ _)
    | (with_reducible refine Sim.bindF (hashG1_sim _ _) fun _ _ _ _ _ _ _ => ?_)
    | (with_reducible refine g1aToProjective_sim ?_; (· rel))
    | (with_reducible refine Sim.bindF (g1aToProjective_sim ?_) fun _ _ _ _ _ _ _ => ?_; (· rel))
    | (with_reducible refine compareTwoPairings_sim ?_ ?_ ?_ ?_; (· rel); (· rel); (· rel); (· rel))
    | (with_reducible refine Sim.bindE (compareTwoPairings_sim ?_ ?_ ?_ ?_) fun _ _ _ _ => ?_; (· rel); (· rel); (· rel); (· rel))

theorem G2Pubs.newAggregateSignature_sim :
    Sim Fresh W m G2Pubs.newAggregateSignature G2Pubs.newAggregateSignature := by
  unfold G2Pubs.newAggregateSignature
  repeat' first
    | sim_step
    | (with_reducible refine g1pCopy_sim ?_; (· rel))
    | (with_reducible refine Sim.bindF (g1pCopy_sim ?_) fun _ _ _ _ _ _ _ => ?_; (· rel))

theorem G2Pubs.newAggregatePubkey_sim :
    Sim Fresh W m G2Pubs.newAggregatePubkey G2Pubs.newAggregatePubkey := by
  unfold G2Pubs.newAggregatePubkey
  repeat' first
    | sim_step
    | (with_reducible refine g2pCopy_sim ?_; (· rel))
    | (with_reducible refine Sim.bindF (g2pCopy_sim ?_) fun _ _ _ _ _ _ _ => ?_; (· rel))

theorem G2Pubs.sigAggregate_sim (h0 : W.rel p p') (hw : W.own p') (h1 : W.rel q q') :
    Sim Eql W m (G2Pubs.sigAggregate p q) (G2Pubs.sigAggregate p' q') := by
  unfold G2Pubs.sigAggregate
  repeat' first
    | sim_step
    | (with_reducible refine g1pAdd_sim ?_ ?_; (· rel); (· rel))
    | (with_reducible refine Sim.bindF (g1pAdd_sim ?_ ?_) fun _ _ _ _ _ _ _ => ?_; (· rel); (· rel))

theorem G2Pubs.pubAggregate_sim (h0 : W.rel p p') (hw : W.own p') (h1 : W.rel q q') :
    Sim Eql W m (G2Pubs.pubAggregate p q) (G2Pubs.pubAggregate p' q') := by
  unfold G2Pubs.pubAggregate
  repeat' first
    | sim_step
    | (with_reducible refine g2pAdd_sim ?_ ?_; (· rel); (· rel))
    | (with_reducible refine Sim.bindF (g2pAdd_sim ?_ ?_) fun _ _ _ _ _ _ _ => ?_; (· rel); (· rel))

theorem G2Pubs.aggregateSignaturesLoop_sim : ∀ {l l' : List Nat} {W : World} {m : Mem}, List.Forall₂ W.rel l l' → W.rel p p' →
    W.own p' → Sim Eql W m (G2Pubs.aggregateSignaturesLoop p l) (G2Pubs.aggregateSignaturesLoop p' l')
  | _, _, W, m, .nil, _, _ => .ret rfl
  | _, _, W, m, .cons hab hl, h, hw => by
    rw [G2Pubs.aggregateSignaturesLoop, G2Pubs.aggregateSignaturesLoop]
    exact Sim.bind (G2Pubs.sigAggregate_sim h hw hab) fun W' m' _ _ hW _ =>
      G2Pubs.aggregateSignaturesLoop_sim (hl.imp fun _ _ => hW.rel) (hW.rel h) (hW.own hw)

theorem G2Pubs.aggregateSignatures_sim {l l' : List Nat} (hl : List.Forall₂ W.rel l l') :
    Sim Fresh W m (G2Pubs.aggregateSignatures l) (G2Pubs.aggregateSignatures l') := by
  unfold G2Pubs.aggregateSignatures
  exact Sim.bind G2Pubs.newAggregateSignature_sim fun W' m' a b hW h =>
    Sim.bind (G2Pubs.aggregateSignaturesLoop_sim (hl.imp fun _ _ => hW.rel) h.1 h.2) fun W'' m'' _ _ hW' _ =>
      .ret ⟨hW'.rel h.1, hW'.own h.2⟩

theorem G2Pubs.aggregatePublicKeysLoop_sim : ∀ {l l' : List Nat} {W : World} {m : Mem}, List.Forall₂ W.rel l l' → W.rel p p' →
    W.own p' → Sim Eql W m (G2Pubs.aggregatePublicKeysLoop p l) (G2Pubs.aggregatePublicKeysLoop p' l')
  | _, _, W, m, .nil, _, _ => .ret rfl
  | _, _, W, m, .cons hab hl, h, hw => by
    rw [G2Pubs.aggregatePublicKeysLoop, G2Pubs.aggregatePublicKeysLoop]
    exact Sim.bind (G2Pubs.pubAggregate_sim h hw hab) fun W' m' _ _ hW _ =>
      G2Pubs.aggregatePublicKeysLoop_sim (hl.imp fun _ _ => hW.rel) (hW.rel h) (hW.own hw)

theorem G2Pubs.aggregatePublicKeys_sim {l l' : List Nat} (hl : List.Forall₂ W.rel l l') :
    Sim Fresh W m (G2Pubs.aggregatePublicKeys l) (G2Pubs.aggregatePublicKeys l') := by
  unfold G2Pubs.aggregatePublicKeys
  exact Sim.bind G2Pubs.newAggregatePubkey_sim fun W' m' a b hW h =>
    Sim.bind (G2Pubs.aggregatePublicKeysLoop_sim (hl.imp fun _ _ => hW.rel) h.1 h.2) fun W'' m'' _ _ hW' _ =>
      .ret ⟨hW'.rel h.1, hW'.own h.2⟩

theorem G2Pubs.pairingProduct_sim (sha : List UInt8 → List UInt8) : ∀ {l l' : List Nat} {W : World} {m : Mem}
    (ms : List (List UInt8)) (rhs : FQ12), List.Forall₂ W.rel l l' →
    Sim Eql W m (G2Pubs.pairingProduct sha l ms rhs) (G2Pubs.pairingProduct sha l' ms rhs)
  | _, _, W, m, ms, rhs, .nil => by cases ms <;> exact .ret rfl
  | _, _, W, m, [], rhs, .cons _ _ => .ret rfl
  | _, _, W, m, x :: ms, rhs, .cons hab hl => by
    rw [G2Pubs.pairingProduct, G2Pubs.pairingProduct]
    repeat' first
    | sim_step
    | (with_reducible refine hashG1_sim _ _)
    | (with_reducible refine Sim.bindF (hashG1_sim _ _) fun _ _ _ _ _ _ _ => ?_)
    | (with_reducible refine g1aToProjective_sim ?_; (· rel))
    | (with_reducible refine Sim.bindF (g1aToProjective_sim ?_) fun _ _ _ _ _ _ _ => ?_; (· rel))
    | (with_reducible refine pairing_sim ?_ ?_; (· rel); (· rel))
    | (with_reducible refine Sim.bindE (pairing_sim ?_ ?_) fun _ _ _ _ => ?_; (· rel); (· rel))
    refine G2Pubs.pairingProduct_sim sha _ _ (hl.imp fun _ _ h => ?_)
    rel

theorem G2Pubs.verifyAggregate_sim (sha : List UInt8 → List UInt8) {l l' : List Nat} (hg : W.rel p p')
    (hl : List.Forall₂ W.rel l l') (hm : W.rel q q') :
    Sim Eql W m (G2Pubs.verifyAggregate sha p l q) (G2Pubs.verifyAggregate sha p' l' q') := by
  unfold G2Pubs.verifyAggregate
  rw [hl.length_eq]
  repeat' first
    | sim_step
    | (with_reducible refine G1Pubs.sortInPlace_sim ?_ ?_; (· rel); (· ownt))
    | (with_reducible refine Sim.bindE (G1Pubs.sortInPlace_sim ?_ ?_) fun _ _ _ _ => ?_; (· rel); (· ownt))
    | (with_reducible refine pairing_sim ?_ ?_; (· rel); (· rel))
    | (with_reducible refine Sim.bindE (pairing_sim ?_ ?_) fun _ _ _ _ => ?_; (· rel); (· rel))
  refine Sim.bindE (G2Pubs.pairingProduct_sim sha _ _ (hl.imp fun _ _ h => ?_)) fun _ _ _ _ => ?_
  · rel
  · exact Sim.liftS _

theorem G2Pubs.verifyAggregateCommon_sim (sha : List UInt8 → List UInt8) (x : List UInt8) {l l' : List Nat} (hg : W.rel p p')
    (hl : List.Forall₂ W.rel l l') :
    Sim Eql W m (G2Pubs.verifyAggregateCommon sha p l x) (G2Pubs.verifyAggregateCommon sha p' l' x) := by
  unfold G2Pubs.verifyAggregateCommon
  exact Sim.bind (G2Pubs.aggregatePublicKeys_sim hl) fun W' m' a b hW h => G2Pubs.verify_sim sha x h.1 (hW.rel hg)

end
end Bls.HeapPoints
