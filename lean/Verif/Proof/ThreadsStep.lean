import Verif.Proof.ThreadsOps
/-
Goroutines: every call of a program accesses only the variables that it is given, the package variables
and what it makes, and overwrites only its receiver and what it makes.
-/
namespace Bls.HeapPoints

/-- The variables of a goroutine that runs alone, `e`, and among others, `e'`: it uses those in `V` and
changes those in `C`. -/
structure EnvRel (V C : Nat → Prop) (W : World) (e e' : List Nat) : Prop where
  len : e.length = e'.length
  use : ∀ {i p p' : Nat}, V i → e[i]? = some p → e'[i]? = some p' → W.rel p p'
  own : ∀ {i p' : Nat}, C i → 8 ≤ i → e'[i]? = some p' → W.own p' ∨ p' = 4

/-- The same effect, up to addresses. -/
inductive EffRel (e e' : List Nat) (W : World) (m : Mem) : Effect Nat → Effect Nat → Prop
  | new {p p' : Nat} (h : Fresh4 W m p p') : EffRel e e' W m (.new p) (.new p')
  | change {i p p' : Nat} (h : e[i]? = some p) (h' : e'[i]? = some p') : EffRel e e' W m (.change i p) (.change i p')
  | out (o : Out) : EffRel e e' W m (.out o) (.out o)

section
variable {V C : Nat → Prop} {W : World} {m : Mem} {e e' : List Nat}

theorem ret_sim {x y : M Nat} (h : Sim Fresh W m x y) : Sim (EffRel e e') W m (ret x) (ret y) :=
  h.bindF fun _ _ _ _ _ hr ho => .ret (.new ⟨hr, .inl ho⟩)
theorem ret4_sim {x y : M Nat} (h : Sim Fresh4 W m x y) : Sim (EffRel e e') W m (ret x) (ret y) :=
  h.bind4 fun _ _ _ _ _ hr ho => .ret (.new ⟨hr, ho⟩)
theorem retOr_sim {x y : M (Option Nat)} (h : Sim FreshOr W m x y) : Sim (EffRel e e') W m (retOr x) (retOr y) := by
  refine h.bind fun _ _ a b _ hr => ?_
  cases hr with
  | none => exact .ret (.out .err)
  | some h => exact .ret (.new h.four)
theorem retBool_sim {x y : M Bool} (h : Sim Eql W m x y) : Sim (EffRel e e') W m (retBool x) (retBool y) :=
  h.bindE fun _ _ _ _ => .ret (.out _)
theorem retBytes_sim {x y : M (List UInt8)} (h : Sim Eql W m x y) : Sim (EffRel e e') W m (retBytes x) (retBytes y) :=
  h.bindE fun _ _ _ _ => .ret (.out _)
theorem act_sim {i p p' : Nat} {x y : M Unit} (hi : e[i]? = some p) (hi' : e'[i]? = some p') (h : Sim Eql W m x y) :
    Sim (EffRel e e') W m (act i p x) (act i p' y) :=
  h.bindE fun _ _ _ _ => .ret (.change hi hi')

theorem EnvRel.get (hE : EnvRel V C W e e') {i p : Nat} (h : e[i]? = some p) : ∃ p', e'[i]? = some p' := by
  have := (List.getElem?_eq_some_iff.mp h).1
  rw [hE.len] at this
  exact ⟨_, List.getElem?_eq_getElem this⟩

theorem Sim.bind_arg {α β : Type} {B : World → Mem → α → β → Prop} {f : Nat × Obj → M α} {g : Nat × Obj → M β}
    (hE : EnvRel V C W e e') {i : Nat} (hi : V i)
    (H : ∀ p p' o o', e[i]? = some p → e'[i]? = some p' → W.rel p p' → m[p]? = some o → ObjRel W.rel o o' →
      (p' = 4 → o' = .g2a .zero) → Sim B W m (f (p, o)) (g (p', o'))) :
    Sim B W m (arg e i >>= f) (arg e' i >>= g) := by
  cases h : e[i]? with
  | none =>
    have h' : e'[i]? = none := by
      rw [List.getElem?_eq_none_iff] at h ⊢; rw [← hE.len]; exact h
    have a1 : arg e i = .panic := by rw [arg, h]
    have a2 : arg e' i = .panic := by rw [arg, h']
    rw [a1, a2]; exact .panic
  | some p =>
    obtain ⟨p', h'⟩ := hE.get h
    have a1 : arg e i = .read p fun o => .ret (p, o) := by rw [arg, h]
    have a2 : arg e' i = .read p' fun o => .ret (p', o) := by rw [arg, h']
    rw [a1, a2]
    exact .read (hE.use hi h h') fun o o' ho hr h4 => H p p' o o' h h' (hE.use hi h h') ho hr h4

theorem Sim.bind_ownArg {α β : Type} {B : World → Mem → α → β → Prop} {f : Nat × Obj → M α} {g : Nat × Obj → M β}
    (hE : EnvRel V C W e e') {i : Nat} (hi : V i) (hc : C i)
    (H : ∀ p p' o o', e[i]? = some p → e'[i]? = some p' → W.rel p p' → (W.own p' ∨ p' = 4) → m[p]? = some o →
      ObjRel W.rel o o' → (p' = 4 → o' = .g2a .zero) → Sim B W m (f (p, o)) (g (p', o'))) :
    Sim B W m (ownArg e i >>= f) (ownArg e' i >>= g) := by
  by_cases h8 : 8 ≤ i
  · have a1 : ownArg e i = arg e i := by rw [ownArg, if_pos h8]
    have a2 : ownArg e' i = arg e' i := by rw [ownArg, if_pos h8]
    rw [a1, a2]
    exact Sim.bind_arg hE hi fun p p' o o' h h' hr => H p p' o o' h h' hr (hE.own hc h8 h')
  · have a1 : ownArg e i = .panic := by rw [ownArg, if_neg h8]; rfl
    have a2 : ownArg e' i = .panic := by rw [ownArg, if_neg h8]; rfl
    rw [a1, a2]; exact .panic

/-- The type is not affected by addresses. -/
structure Blind (is : Obj → Bool) : Prop where
  eq : ∀ {r : Nat → Nat → Prop} {o o' : Obj}, ObjRel r o o' → is o = is o'

theorem bSig1 : Blind Obj.isSig1 := ⟨fun h => by cases h <;> rfl⟩
theorem bPub1 : Blind Obj.isPub1 := ⟨fun h => by cases h <;> rfl⟩
theorem bSig2 : Blind Obj.isSig2 := ⟨fun h => by cases h <;> rfl⟩
theorem bPub2 : Blind Obj.isPub2 := ⟨fun h => by cases h <;> rfl⟩
theorem bMsgs : Blind Obj.isMsgs := ⟨fun h => by cases h <;> rfl⟩

theorem Sim.bind_argOf {α β : Type} {B : World → Mem → α → β → Prop} {f : Nat → M α} {g : Nat → M β} {is : Obj → Bool}
    (b : Blind is) (hE : EnvRel V C W e e') {i : Nat} (hi : V i) (H : ∀ p p', W.rel p p' → Sim B W m (f p) (g p')) :
    Sim B W m (argOf is e i >>= f) (argOf is e' i >>= g) := by
  have : ∀ e, argOf is e i >>= f = arg e i >>= fun t => (if is t.2 then Pure.pure t.1 else HeapPoints.lift none) >>= f := fun e => by
    rw [argOf]; unfold arg; cases e[i]? <;> rfl
  have k : ∀ e, argOf is e i >>= g = arg e i >>= fun t => (if is t.2 then Pure.pure t.1 else HeapPoints.lift none) >>= g := fun e => by
    rw [argOf]; unfold arg; cases e[i]? <;> rfl
  rw [this, k]
  refine Sim.bind_arg hE hi fun p p' o o' _ _ hr _ ho _ => ?_
  show Sim B W m ((if is o then Pure.pure p else HeapPoints.lift none) >>= f) ((if is o' then Pure.pure p' else HeapPoints.lift none) >>= g)
  rw [b.eq ho]
  cases is o' with
  | true => exact H p p' hr
  | false => exact .panic

theorem argsOf_sim {is : Obj → Bool} (b : Blind is) (hE : EnvRel V C W e e') : ∀ {l : List Nat}, (∀ i ∈ l, V i) →
    Sim (fun W' _ a b => W' = W ∧ List.Forall₂ W.rel a b) W m (argsOf is e l) (argsOf is e' l)
  | [], _ => .ret ⟨rfl, .nil⟩
  | i :: l, h => by
    rw [argsOf, argsOf]
    refine Sim.bind_argOf b hE (h i List.mem_cons_self) fun p p' hr => ?_
    refine (argsOf_sim b hE fun j hj => h j (List.mem_cons_of_mem _ hj)).bind fun W' m' a a' _ ha => ?_
    obtain ⟨rfl, ha⟩ := ha
    exact .ret ⟨rfl, .cons hr ha⟩

theorem Sim.bind_argsOf {α β : Type} {B : World → Mem → α → β → Prop} {f : List Nat → M α} {g : List Nat → M β}
    {is : Obj → Bool} (b : Blind is) (hE : EnvRel V C W e e') {l : List Nat} (hl : ∀ i ∈ l, V i)
    (H : ∀ m a a', List.Forall₂ W.rel a a' → Sim B W m (f a) (g a')) :
    Sim B W m (argsOf is e l >>= f) (argsOf is e' l >>= g) :=
  (argsOf_sim b hE hl).bind fun W' m' a a' _ ha => by obtain ⟨rfl, ha⟩ := ha; exact H _ _ _ ha

theorem g2aNeg_sim4 {p p' : Nat} (hp : W.rel p p') (hw : W.own p' ∨ p' = 4) :
    Sim Eql W m (g2aNeg p) (g2aNeg p') := by
  unfold g2aNeg
  refine Sim.bind_g2a' hp fun v _ h4 => ?_
  rcases hw with hw | hw
  · exact Sim.ite Sim.pureE (Sim.set hp hw (.g2a _))
  · rw [h4 hw]; exact .ret rfl

/-- A call. -/
theorem Op.sim (sha : List UInt8 → List UInt8) (hE : EnvRel V C W e e') (op : Op) (hV : ∀ i ∈ op.vars, V i)
    (hC : ∀ i, op.receiver = some i → C i)
    (hS : ∀ i b p v, op = .setRawBytes i b → e[i]? = some p → m[p]? = some (.g2a v) → v.infinity = false) :
    Sim (EffRel e e') W m (op.onMemory sha e) (op.onMemory sha e') := by
  cases op with
  | newG1Affine x y => exact ret_sim (Sim.new (.g1a _))
  | newG1Projective x y z => exact ret_sim (Sim.new (.g1p _))
  | newG2Affine x y => exact ret_sim (Sim.new (.g2a _))
  | newG2Projective x y z => exact ret_sim (Sim.new (.g2p _))
  | newMsgs x => exact ret_sim (Sim.new (.msgs _))
  | neg i =>
    refine Sim.bind_ownArg hE (hV i (by simp [Op.vars])) (hC i rfl) fun p p' o o' hi hi' hp hw ho hr h4 => ?_
    cases hr with
    | g1a v => exact act_sim hi hi' (g1aNeg_sim hp (hw.resolve_right fun e => by cases h4 e))
    | g1p v => exact act_sim hi hi' (g1pNeg_sim hp (hw.resolve_right fun e => by cases h4 e))
    | g2a v => exact act_sim hi hi' (g2aNeg_sim4 hp hw)
    | _ => exact .panic
  | setRawBytes i b =>
    refine Sim.bind_ownArg hE (hV i (by simp [Op.vars])) (hC i rfl) fun p p' o o' hi hi' hp hw ho hr h4 => ?_
    cases hr with
    | g1a v => exact act_sim hi hi' (g1aSetRawBytes_sim b hp (hw.resolve_right fun e => by cases h4 e))
    | g2a v => 
      refine act_sim hi hi' (g2aSetRawBytes_sim b hp (hw.resolve_right fun e => ?_))
      have h := hS i b p v rfl hi ho
      have h0 := h4 e
      cases h0; cases h
    | _ => exact .panic
  | aggregate i j =>
    refine Sim.bind_ownArg hE (hV i (by simp [Op.vars])) (hC i rfl) fun p p' o o' hi hi' hp hw ho hr h4 => ?_
    refine Sim.bind_arg hE (hV j (by simp [Op.vars])) fun q q' u u' _ _ hq hu hs _ => ?_
    cases hr with
    | sig1 h =>
      cases hs with
      | sig1 h' => exact act_sim hi hi' (G1Pubs.sigAggregate_sim hp (hw.resolve_right fun e => by cases h4 e) hq)
      | _ => exact .panic
    | pub1 h =>
      cases hs with
      | pub1 h' => exact act_sim hi hi' (G1Pubs.pubAggregate_sim hp (hw.resolve_right fun e => by cases h4 e) hq)
      | _ => exact .panic
    | sig2 h =>
      cases hs with
      | sig2 h' => exact act_sim hi hi' (G2Pubs.sigAggregate_sim hp (hw.resolve_right fun e => by cases h4 e) hq)
      | _ => exact .panic
    | pub2 h =>
      cases hs with
      | pub2 h' => exact act_sim hi hi' (G2Pubs.pubAggregate_sim hp (hw.resolve_right fun e => by cases h4 e) hq)
      | _ => exact .panic
    | _ => exact .panic
  | copy i =>
    refine Sim.bind_arg hE (hV i (by simp [Op.vars])) fun p p' o o' hi hi' hp ho hr h4 => ?_
    cases hr with
    | g1a v => exact ret_sim (g1aCopy_sim hp)
    | g1p v => exact ret_sim (g1pCopy_sim hp)
    | g2a v => exact ret_sim (g2aCopy_sim hp)
    | g2p v => exact ret_sim (g2pCopy_sim hp)
    | sig1 h => exact ret_sim (G1Pubs.sigCopy_sim hp)
    | pub1 h => exact ret_sim (G1Pubs.pubCopy_sim hp)
    | sig2 h => exact ret_sim (G2Pubs.sigCopy_sim hp)
    | pub2 h => exact ret_sim (G2Pubs.pubCopy_sim hp)
    | _ => exact .panic
  | toProjective i =>
    refine Sim.bind_arg hE (hV i (by simp [Op.vars])) fun p p' o o' hi hi' hp ho hr h4 => ?_
    cases hr with
    | g1a v => exact ret_sim (g1aToProjective_sim hp)
    | g2a v => exact ret_sim (g2aToProjective_sim hp)
    | _ => exact .panic
  | toAffine i =>
    refine Sim.bind_arg hE (hV i (by simp [Op.vars])) fun p p' o o' hi hi' hp ho hr h4 => ?_
    cases hr with
    | g1p v => exact ret_sim (g1pToAffine_sim hp)
    | g2p v => exact ret4_sim (g2pToAffine_sim hp)
    | _ => exact .panic
  | double i =>
    refine Sim.bind_arg hE (hV i (by simp [Op.vars])) fun p p' o o' hi hi' hp ho hr h4 => ?_
    cases hr with
    | g1p v => exact ret_sim (g1pDouble_sim hp)
    | g2p v => exact ret_sim (g2pDouble_sim hp)
    | _ => exact .panic
  | add i j =>
    refine Sim.bind_arg hE (hV i (by simp [Op.vars])) fun p p' o o' _ _ hp _ hr _ => ?_
    refine Sim.bind_arg hE (hV j (by simp [Op.vars])) fun q q' u u' _ _ hq _ hs _ => ?_
    cases hr with
    | g1p v =>
      cases hs with
      | g1p w => exact ret_sim (g1pAdd_sim hp hq)
      | _ => exact .panic
    | g2p v =>
      cases hs with
      | g2p w => exact ret_sim (g2pAdd_sim hp hq)
      | _ => exact .panic
    | _ => exact .panic
  | addAffine i j =>
    refine Sim.bind_arg hE (hV i (by simp [Op.vars])) fun p p' o o' _ _ hp _ hr _ => ?_
    refine Sim.bind_arg hE (hV j (by simp [Op.vars])) fun q q' u u' _ _ hq _ hs _ => ?_
    cases hr with
    | g1p v =>
      cases hs with
      | g1a w => exact ret_sim (g1pAddAffine_sim hp hq)
      | _ => exact .panic
    | g2p v =>
      cases hs with
      | g2a w => exact ret_sim (g2pAddAffine_sim hp hq)
      | _ => exact .panic
    | _ => exact .panic
  | mul i b =>
    refine Sim.bind_arg hE (hV i (by simp [Op.vars])) fun p p' o o' hi hi' hp ho hr h4 => ?_
    cases hr with
    | g1a v => exact ret_sim (g1aMul_sim _ _ hp)
    | g1p v => exact ret_sim (g1pMul_sim _ _ hp)
    | g2a v => exact ret_sim (g2aMul_sim _ _ hp)
    | g2p v => exact ret_sim (g2pMul_sim _ _ hp)
    | _ => exact .panic
  | mulFR i b =>
    refine Sim.bind_arg hE (hV i (by simp [Op.vars])) fun p p' o o' hi hi' hp ho hr h4 => ?_
    cases hr with
    | g1a v => exact ret_sim (g1aMul_sim _ _ hp)
    | g1p v => exact ret_sim (g1pMul_sim _ _ hp)
    | g2a v => exact ret_sim (g2aMul_sim _ _ hp)
    | g2p v => exact ret_sim (g2pMul_sim _ _ hp)
    | _ => exact .panic
  | mulBig i b =>
    refine Sim.bind_arg hE (hV i (by simp [Op.vars])) fun p p' o o' hi hi' hp ho hr h4 => ?_
    cases hr with
    | g2a v => exact ret_sim (g2aMulBig_sim _ hp)
    | _ => exact .panic
  | scaleByCofactor i =>
    refine Sim.bind_arg hE (hV i (by simp [Op.vars])) fun p p' o o' hi hi' hp ho hr h4 => ?_
    cases hr with
    | g1a v => exact ret_sim (g1aScaleByCofactor_sim hp)
    | g2a v => exact ret_sim (g2aScaleByCofactor_sim hp)
    | _ => exact .panic
  | getG1PointFromX x g => exact retOr_sim (getG1PointFromX_sim _ _)
  | getG2PointFromX x g => exact retOr_sim (getG2PointFromX_sim _ _)
  | decompressG1 b => exact retOr_sim (decompressG1_sim _)
  | decompressG1Unchecked b => exact retOr_sim (decompressG1Unchecked_sim _)
  | decompressG2 b => exact retOr_sim (decompressG2_sim _)
  | decompressG2Unchecked b => exact retOr_sim (decompressG2Unchecked_sim _)
  | swEncodeG2 t => exact retOr_sim (swEncodeG2_sim _)
  | hashG1 x => exact ret_sim (hashG1_sim _ _)
  | hashG2 x => exact ret4_sim (hashG2_sim _ _)
  | hashG2WithDomain x d => exact ret_sim (hashG2WithDomain_sim _ _ _)
  | newSignature pkg i =>
    cases pkg with
    | g1pubs =>
      refine Sim.bind_arg hE (hV i (by simp [Op.vars])) fun p p' o o' _ _ hp _ hr _ => ?_
      cases hr with
      | g2a v => exact ret_sim (G1Pubs.newSignatureFromG2_sim hp)
      | _ => exact .panic
    | g2pubs =>
      refine Sim.bind_arg hE (hV i (by simp [Op.vars])) fun p p' o o' _ _ hp _ hr _ => ?_
      cases hr with
      | g1a v => exact ret_sim (G2Pubs.newSignatureFromG1_sim hp)
      | _ => exact .panic
  | newPublicKey pkg i =>
    cases pkg with
    | g1pubs =>
      refine Sim.bind_arg hE (hV i (by simp [Op.vars])) fun p p' o o' _ _ hp _ hr _ => ?_
      cases hr with
      | g1a v => exact ret_sim (G1Pubs.newPublicKeyFromG1_sim hp)
      | _ => exact .panic
    | g2pubs =>
      refine Sim.bind_arg hE (hV i (by simp [Op.vars])) fun p p' o o' _ _ hp _ hr _ => ?_
      cases hr with
      | g2a v => exact ret_sim (G2Pubs.newPublicKeyFromG2_sim hp)
      | _ => exact .panic
  | deserializeSignature pkg b =>
    cases pkg with
    | g1pubs => exact retOr_sim (G1Pubs.deserializeSignature_sim _)
    | g2pubs => exact retOr_sim (G2Pubs.deserializeSignature_sim _)
  | deserializePublicKey pkg b =>
    cases pkg with
    | g1pubs => exact retOr_sim (G1Pubs.deserializePublicKey_sim _)
    | g2pubs => exact retOr_sim (G2Pubs.deserializePublicKey_sim _)
  | getPoint i =>
    refine Sim.bind_arg hE (hV i (by simp [Op.vars])) fun p p' o o' hi hi' hp ho hr h4 => ?_
    cases hr with
    | sig1 h => exact ret_sim (G1Pubs.sigGetPoint_sim hp)
    | pub1 h => exact ret_sim (G1Pubs.pubGetPoint_sim hp)
    | sig2 h => exact ret_sim (G2Pubs.sigGetPoint_sim hp)
    | pub2 h => exact ret_sim (G2Pubs.pubGetPoint_sim hp)
    | _ => exact .panic
  | sign pkg x f =>
    cases pkg with
    | g1pubs => exact ret_sim (G1Pubs.sign_sim _ _ _)
    | g2pubs => exact ret_sim (G2Pubs.sign_sim _ _ _)
  | signWithDomain x f d => exact ret_sim (G1Pubs.signWithDomain_sim _ _ _ _)
  | privToPub pkg f =>
    cases pkg with
    | g1pubs => exact ret_sim (G1Pubs.privToPub_sim _)
    | g2pubs => exact ret_sim (G2Pubs.privToPub_sim _)
  | newAggregateSignature pkg =>
    cases pkg with
    | g1pubs => exact ret_sim G1Pubs.newAggregateSignature_sim
    | g2pubs => exact ret_sim G2Pubs.newAggregateSignature_sim
  | newAggregatePubkey pkg =>
    cases pkg with
    | g1pubs => exact ret_sim G1Pubs.newAggregatePubkey_sim
    | g2pubs => exact ret_sim G2Pubs.newAggregatePubkey_sim
  | aggregateSignatures pkg l =>
    cases pkg with
    | g1pubs => exact Sim.bind_argsOf bSig1 hE hV fun _ _ _ hl => ret_sim (G1Pubs.aggregateSignatures_sim hl)
    | g2pubs => exact Sim.bind_argsOf bSig2 hE hV fun _ _ _ hl => ret_sim (G2Pubs.aggregateSignatures_sim hl)
  | aggregatePublicKeys pkg l =>
    cases pkg with
    | g1pubs => exact Sim.bind_argsOf bPub1 hE hV fun _ _ _ hl => ret_sim (G1Pubs.aggregatePublicKeys_sim hl)
    | g2pubs => exact Sim.bind_argsOf bPub2 hE hV fun _ _ _ hl => ret_sim (G2Pubs.aggregatePublicKeys_sim hl)
  | isZero i =>
    refine Sim.bind_arg hE (hV i (by simp [Op.vars])) fun p p' o o' hi hi' hp ho hr h4 => ?_
    cases hr with
    | g1a v => exact retBool_sim (Sim.bind_g1a hp fun _ => Sim.pureE)
    | g1p v => exact retBool_sim (Sim.bind_g1p hp fun _ => Sim.pureE)
    | g2a v => exact retBool_sim (Sim.bind_g2a hp fun _ => Sim.pureE)
    | g2p v => exact retBool_sim (Sim.bind_g2p hp fun _ => Sim.pureE)
    | _ => exact .panic
  | isOnCurve i =>
    refine Sim.bind_arg hE (hV i (by simp [Op.vars])) fun p p' o o' hi hi' hp ho hr h4 => ?_
    cases hr with
    | g1a v => exact retBool_sim (Sim.bind_g1a hp fun _ => Sim.pureE)
    | g2a v => exact retBool_sim (Sim.bind_g2a hp fun _ => Sim.pureE)
    | _ => exact .panic
  | isInCorrectSubgroup i =>
    refine Sim.bind_arg hE (hV i (by simp [Op.vars])) fun p p' o o' hi hi' hp ho hr h4 => ?_
    cases hr with
    | g1a v => exact retBool_sim (Sim.bind_g1a hp fun _ => Sim.pureE)
    | g2a v => exact retBool_sim (Sim.bind_g2a hp fun _ => Sim.pureE)
    | _ => exact .panic
  | equals i j =>
    refine Sim.bind_arg hE (hV i (by simp [Op.vars])) fun p p' o o' _ _ hp _ hr _ => ?_
    refine Sim.bind_arg hE (hV j (by simp [Op.vars])) fun q q' u u' _ _ hq _ hs _ => ?_
    cases hr with
    | g1a v =>
      cases hs with
      | g1a w => exact retBool_sim (Sim.bind_g1a hp fun _ => Sim.bind_g1a hq fun _ => Sim.pureE)
      | _ => exact .panic
    | g1p v =>
      cases hs with
      | g1p w => exact retBool_sim (Sim.bind_g1p hp fun _ => Sim.bind_g1p hq fun _ => Sim.pureE)
      | _ => exact .panic
    | g2a v =>
      cases hs with
      | g2a w => exact retBool_sim (Sim.bind_g2a hp fun _ => Sim.bind_g2a hq fun _ => Sim.pureE)
      | _ => exact .panic
    | g2p v =>
      cases hs with
      | g2p w => exact retBool_sim (Sim.bind_g2p hp fun _ => Sim.bind_g2p hq fun _ => Sim.pureE)
      | _ => exact .panic
    | pub1 v =>
      cases hs with
      | pub1 w => exact retBool_sim (G1Pubs.pubEquals_sim hp hq)
      | _ => exact .panic
    | pub2 v =>
      cases hs with
      | pub2 w => exact retBool_sim (G2Pubs.pubEquals_sim hp hq)
      | _ => exact .panic
    | _ => exact .panic
  | serialize i =>
    refine Sim.bind_arg hE (hV i (by simp [Op.vars])) fun p p' o o' hi hi' hp ho hr h4 => ?_
    cases hr with
    | g1a v => exact retBytes_sim (Sim.bind_g1a hp fun _ => Sim.pureE)
    | g2a v => exact retBytes_sim (Sim.bind_g2a hp fun _ => Sim.pureE)
    | sig1 h => exact retBytes_sim (G1Pubs.sigSerialize_sim hp)
    | pub1 h => exact retBytes_sim (G1Pubs.pubSerialize_sim hp)
    | sig2 h => exact retBytes_sim (G2Pubs.sigSerialize_sim hp)
    | pub2 h => exact retBytes_sim (G2Pubs.pubSerialize_sim hp)
    | _ => exact .panic
  | compress i =>
    refine Sim.bind_arg hE (hV i (by simp [Op.vars])) fun p p' o o' hi hi' hp ho hr h4 => ?_
    cases hr with
    | g1a v => exact retBytes_sim (Sim.bind_g1a hp fun _ => Sim.pureE)
    | g2a v => exact retBytes_sim (Sim.bind_g2a hp fun _ => Sim.pureE)
    | _ => exact .panic
  | compareTwoPairings i j k l =>
    refine Sim.bind_arg hE (hV i (by simp [Op.vars])) fun p p' o o' _ _ hp _ hr _ => ?_
    refine Sim.bind_arg hE (hV j (by simp [Op.vars])) fun q q' u u' _ _ hq _ hs _ => ?_
    refine Sim.bind_arg hE (hV k (by simp [Op.vars])) fun p2 p2' o2 o2' _ _ hp2 _ hr2 _ => ?_
    refine Sim.bind_arg hE (hV l (by simp [Op.vars])) fun q2 q2' u2 u2' _ _ hq2 _ hs2 _ => ?_
    cases hr with
    | g1p v =>
      cases hs with
      | g2p v =>
        cases hr2 with
        | g1p v =>
          cases hs2 with
          | g2p v => exact retBool_sim (compareTwoPairings_sim hp hq hp2 hq2)
          | _ => exact .panic
        | _ => exact .panic
      | _ => exact .panic
    | _ => exact .panic
  | verify pkg x pk g =>
    cases pkg with
    | g1pubs =>
      exact Sim.bind_argOf bPub1 hE (hV pk (by simp [Op.vars])) fun _ _ hp =>
        Sim.bind_argOf bSig1 hE (hV g (by simp [Op.vars])) fun _ _ hg => retBool_sim (G1Pubs.verify_sim _ _ hp hg)
    | g2pubs =>
      exact Sim.bind_argOf bPub2 hE (hV pk (by simp [Op.vars])) fun _ _ hp =>
        Sim.bind_argOf bSig2 hE (hV g (by simp [Op.vars])) fun _ _ hg => retBool_sim (G2Pubs.verify_sim _ _ hp hg)
  | verifyWithDomain x pk g d =>
    exact Sim.bind_argOf bPub1 hE (hV pk (by simp [Op.vars])) fun _ _ hp =>
      Sim.bind_argOf bSig1 hE (hV g (by simp [Op.vars])) fun _ _ hg => retBool_sim (G1Pubs.verifyWithDomain_sim _ _ _ hp hg)
  | verifyAggregate pkg g l ms =>
    cases pkg with
    | g1pubs =>
      exact Sim.bind_argOf bSig1 hE (hV g (by simp [Op.vars])) fun _ _ hg =>
        Sim.bind_argsOf bPub1 hE (fun i hi => hV i (by simp [Op.vars, hi])) fun _ _ _ hl =>
        Sim.bind_argOf bMsgs hE (hV ms (by simp [Op.vars])) fun _ _ hm => retBool_sim (G1Pubs.verifyAggregate_sim _ hg hl hm)
    | g2pubs =>
      exact Sim.bind_argOf bSig2 hE (hV g (by simp [Op.vars])) fun _ _ hg =>
        Sim.bind_argsOf bPub2 hE (fun i hi => hV i (by simp [Op.vars, hi])) fun _ _ _ hl =>
        Sim.bind_argOf bMsgs hE (hV ms (by simp [Op.vars])) fun _ _ hm => retBool_sim (G2Pubs.verifyAggregate_sim _ hg hl hm)
  | verifyAggregateCommon pkg g l x =>
    cases pkg with
    | g1pubs =>
      exact Sim.bind_argOf bSig1 hE (hV g (by simp [Op.vars])) fun _ _ hg =>
        Sim.bind_argsOf bPub1 hE (fun i hi => hV i (by simp [Op.vars, hi])) fun _ _ _ hl =>
        retBool_sim (G1Pubs.verifyAggregateCommon_sim _ _ hg hl)
    | g2pubs =>
      exact Sim.bind_argOf bSig2 hE (hV g (by simp [Op.vars])) fun _ _ hg =>
        Sim.bind_argsOf bPub2 hE (fun i hi => hV i (by simp [Op.vars, hi])) fun _ _ _ hl =>
        retBool_sim (G2Pubs.verifyAggregateCommon_sim _ _ hg hl)
  | verifyAggregateCommonWithDomain g l x d =>
    exact Sim.bind_argOf bSig1 hE (hV g (by simp [Op.vars])) fun _ _ hg =>
      Sim.bind_argsOf bPub1 hE (fun i hi => hV i (by simp [Op.vars, hi])) fun _ _ _ hl =>
      retBool_sim (G1Pubs.verifyAggregateCommonWithDomain_sim _ _ _ hg hl)
  | verifyAggregateWithDomain g l ms d =>
    exact Sim.bind_argOf bSig1 hE (hV g (by simp [Op.vars])) fun _ _ hg =>
      Sim.bind_argsOf bPub1 hE (fun i hi => hV i (by simp [Op.vars, hi])) fun _ _ _ hl =>
      Sim.bind_argOf bMsgs hE (hV ms (by simp [Op.vars])) fun _ _ hm => retBool_sim (G1Pubs.verifyAggregateWithDomain_sim _ _ hg hl hm)

end
end Bls.HeapPoints
