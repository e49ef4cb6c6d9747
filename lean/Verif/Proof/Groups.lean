import Verif.Spec.Groups
/-
Two ways to run a program whose operations agree up to a relation between values give related variables and see the same.
-/
namespace Bls.Groups

theorem rel_bind {α β γ δ : Type} {R : α → β → Prop} {S : γ → δ → Prop} {x : Option α} {y : Option β}
    {f : α → Option γ} {g : β → Option δ} (h : Option.Rel R x y) (hf : ∀ a b, R a b → Option.Rel S (f a) (g b)) :
    Option.Rel S (x.bind f) (y.bind g) := by
  cases h with
  | none => exact .none
  | some h => exact hf _ _ h

theorem rel_map {α β γ δ : Type} {R : α → β → Prop} {S : γ → δ → Prop} {x : Option α} {y : Option β}
    {f : α → γ} {g : β → δ} (h : Option.Rel R x y) (hf : ∀ a b, R a b → S (f a) (g b)) :
    Option.Rel S (x.map f) (y.map g) := by
  cases h with
  | none => exact .none
  | some h => exact .some (hf _ _ h)

theorem rel_get {α β : Type} {R : α → β → Prop} {l : List α} {m : List β} (h : List.Forall₂ R l m) (i : Nat) :
    Option.Rel R l[i]? m[i]? := by
  induction h generalizing i with
  | nil => simp
  | cons h _ ih =>
    cases i with
    | zero => simpa using Option.Rel.some h
    | succ i => simpa using ih i

theorem rel_push {α β : Type} {R : α → β → Prop} {l : List α} {m : List β} (h : List.Forall₂ R l m) {a : α} {b : β}
    (hab : R a b) : List.Forall₂ R (l ++ [a]) (m ++ [b]) := List.rel_append h (.cons hab .nil)

variable {F A B T F' A' B' T' : Type}

/-- The operations agree up to relations between the values. -/
structure Related (G : Ops F A B T) (G' : Ops F' A' B' T') (RF : F → F' → Prop) (RA : A → A' → Prop)
    (RB : B → B' → Prop) (RT : T → T' → Prop) : Prop where
  scalar : ∀ k, Option.Rel RF (G.scalar k) (G'.scalar k)
  binF : ∀ o {x x' y y'}, RF x x' → RF y y' → RF (G.binF o x y) (G'.binF o x' y')
  unF : ∀ o {x x'}, RF x x' → RF (G.unF o x) (G'.unF o x')
  invF : ∀ {x x'}, RF x x' → Option.Rel RF (G.invF x) (G'.invF x')
  outF : ∀ {x x'}, RF x x' → G.outF x = G'.outF x'
  eqF : ∀ {x x' y y'}, RF x x' → RF y y' → G.eqF x y = G'.eqF x' y'
  zeroF : ∀ {x x'}, RF x x' → G.zeroF x = G'.zeroF x'
  gen1 : RA G.gen1 G'.gen1
  inf1 : RA G.inf1 G'.inf1
  bin1 : ∀ o {x x' y y'}, RA x x' → RA y y' → RA (G.bin1 o x y) (G'.bin1 o x' y')
  un1 : ∀ o {x x'}, RA x x' → RA (G.un1 o x) (G'.un1 o x')
  mul1 : ∀ o {x x' y y'}, RA x x' → RF y y' → RA (G.mul1 o x y) (G'.mul1 o x' y')
  out1 : ∀ {x x'}, RA x x' → G.out1 x = G'.out1 x'
  read1 : ∀ b, b.length = 48 → Option.Rel RA (G.read1 b) (G'.read1 b)
  eq1 : ∀ {x x' y y'}, RA x x' → RA y y' → G.eq1 x y = G'.eq1 x' y'
  zero1 : ∀ {x x'}, RA x x' → G.zero1 x = G'.zero1 x'
  gen2 : RB G.gen2 G'.gen2
  inf2 : RB G.inf2 G'.inf2
  bin2 : ∀ o {x x' y y'}, RB x x' → RB y y' → RB (G.bin2 o x y) (G'.bin2 o x' y')
  un2 : ∀ o {x x'}, RB x x' → RB (G.un2 o x) (G'.un2 o x')
  mul2 : ∀ o {x x' y y'}, RB x x' → RF y y' → RB (G.mul2 o x y) (G'.mul2 o x' y')
  out2 : ∀ {x x'}, RB x x' → G.out2 x = G'.out2 x'
  read2 : ∀ b, b.length = 96 → Option.Rel RB (G.read2 b) (G'.read2 b)
  eq2 : ∀ {x x' y y'}, RB x x' → RB y y' → G.eq2 x y = G'.eq2 x' y'
  zero2 : ∀ {x x'}, RB x x' → G.zero2 x = G'.zero2 x'
  pairs : ∀ {l l'}, List.Forall₂ (fun a a' => RA a.1 a'.1 ∧ RB a.2 a'.2) l l' → Option.Rel RT (G.pairs l) (G'.pairs l')
  pair : ∀ {x x' y y'}, RA x x' → RB y y' → Option.Rel RT (G.pair x y) (G'.pair x' y')
  oneT : RT G.oneT G'.oneT
  mulT : ∀ {x x' y y'}, RT x x' → RT y y' → RT (G.mulT x y) (G'.mulT x' y')
  unT : ∀ o {x x'}, RT x x' → RT (G.unT o x) (G'.unT o x')
  invT : ∀ {x x'}, RT x x' → Option.Rel RT (G.invT x) (G'.invT x')
  expT : ∀ {x x' y y'}, RT x x' → RF y y' → RT (G.expT x y) (G'.expT x' y')
  eqT : ∀ {x x' y y'}, RT x x' → RT y y' → G.eqT x y = G'.eqT x' y'
  compare : ∀ {x x' y y' z z' w w'}, RA x x' → RB y y' → RA z z' → RB w w' → G.compare x y z w = G'.compare x' y' z' w'

/-- The variables are related one by one. -/
structure VRel (RF : F → F' → Prop) (RA : A → A' → Prop) (RB : B → B' → Prop) (RT : T → T' → Prop)
    (v : Vars F A B T) (w : Vars F' A' B' T') : Prop where
  sc : List.Forall₂ RF v.sc w.sc
  g1 : List.Forall₂ RA v.g1 w.g1
  g2 : List.Forall₂ RB v.g2 w.g2
  gt : List.Forall₂ RT v.gt w.gt

variable {G : Ops F A B T} {G' : Ops F' A' B' T'} {RF : F → F' → Prop} {RA : A → A' → Prop} {RB : B → B' → Prop}
  {RT : T → T' → Prop} {v : Vars F A B T} {w : Vars F' A' B' T'}

theorem VRel.pushF (h : VRel RF RA RB RT v w) {x : F} {y : F'} (hx : RF x y) :
    VRel RF RA RB RT (v.pushF x) (w.pushF y) := ⟨rel_push h.1 hx, h.2, h.3, h.4⟩
theorem VRel.push1 (h : VRel RF RA RB RT v w) {x : A} {y : A'} (hx : RA x y) :
    VRel RF RA RB RT (v.push1 x) (w.push1 y) := ⟨h.1, rel_push h.2 hx, h.3, h.4⟩
theorem VRel.push2 (h : VRel RF RA RB RT v w) {x : B} {y : B'} (hx : RB x y) :
    VRel RF RA RB RT (v.push2 x) (w.push2 y) := ⟨h.1, h.2, rel_push h.3 hx, h.4⟩
theorem VRel.pushT (h : VRel RF RA RB RT v w) {x : T} {y : T'} (hx : RT x y) :
    VRel RF RA RB RT (v.pushT x) (w.pushT y) := ⟨h.1, h.2, h.3, rel_push h.4 hx⟩

theorem VRel.points (h : VRel RF RA RB RT v w) (l : List (Nat × Nat)) :
    Option.Rel (List.Forall₂ fun a a' => RA a.1 a'.1 ∧ RB a.2 a'.2) (v.points l) (w.points l) := by
  induction l with
  | nil => exact .some .nil
  | cons x l ih =>
    exact rel_bind (rel_get h.g1 _) fun a b hab => rel_bind (rel_get h.g2 _) fun c d hcd =>
      rel_map ih fun _ _ ht => .cons ⟨hab, hcd⟩ ht

/-- What two runs give: related variables, and the same observations. -/
abbrev RunRel (RF : F → F' → Prop) (RA : A → A' → Prop) (RB : B → B' → Prop) (RT : T → T' → Prop) :
    Vars F A B T × List Obs → Vars F' A' B' T' × List Obs → Prop := fun x y => VRel RF RA RB RT x.1 y.1 ∧ x.2 = y.2

theorem rel_see {x : Option (Vars F A B T × List Obs)} {y : Option (Vars F' A' B' T' × List Obs)}
    (h : Option.Rel (RunRel RF RA RB RT) x y) (o : Obs) : Option.Rel (RunRel RF RA RB RT) (see o x) (see o y) :=
  rel_map h fun _ _ hab => ⟨hab.1, by rw [hab.2]⟩

theorem rel_of_eq {α : Type} {x y : Option α} (h : x = y) : Option.Rel (fun a b => a = b) x y := by
  subst h; cases x with
  | none => exact .none
  | some => exact .some rfl

theorem Related.test (H : Related G G' RF RA RB RT) (h : VRel RF RA RB RT v w) (t : Test) :
    Option.Rel (fun a b => a = b) (t.run G v) (t.run G' w) := by
  cases t with
  | eqF i j => exact rel_bind (rel_get h.sc i) fun _ _ ha => rel_map (rel_get h.sc j) fun _ _ hb => H.eqF ha hb
  | zeroF i => exact rel_map (rel_get h.sc i) fun _ _ ha => H.zeroF ha
  | eq1 i j => exact rel_bind (rel_get h.g1 i) fun _ _ ha => rel_map (rel_get h.g1 j) fun _ _ hb => H.eq1 ha hb
  | zero1 i => exact rel_map (rel_get h.g1 i) fun _ _ ha => H.zero1 ha
  | eq2 i j => exact rel_bind (rel_get h.g2 i) fun _ _ ha => rel_map (rel_get h.g2 j) fun _ _ hb => H.eq2 ha hb
  | zero2 i => exact rel_map (rel_get h.g2 i) fun _ _ ha => H.zero2 ha
  | eqT i j => exact rel_bind (rel_get h.gt i) fun _ _ ha => rel_map (rel_get h.gt j) fun _ _ hb => H.eqT ha hb
  | compare i k j l =>
    exact rel_bind (rel_get h.g1 i) fun _ _ ha => rel_bind (rel_get h.g2 k) fun _ _ hb =>
      rel_bind (rel_get h.g1 j) fun _ _ hc => rel_bind (rel_get h.g2 l) fun _ _ hd => rel_of_eq (H.compare ha hb hc hd)

theorem Related.run (H : Related G G' RF RA RB RT) (p : Prog) (h : VRel RF RA RB RT v w) :
    Option.Rel (RunRel RF RA RB RT) (p.run G v) (p.run G' w) := by
  induction p generalizing v w with
  | done => exact .some ⟨h, rfl⟩
  | scalar k p ih => exact rel_bind (H.scalar k) fun _ _ hx => ih (h.pushF hx)
  | binF o i j p ih =>
    exact rel_bind (rel_get h.sc i) fun _ _ ha => rel_bind (rel_get h.sc j) fun _ _ hb => ih (h.pushF (H.binF o ha hb))
  | unF o i p ih => exact rel_bind (rel_get h.sc i) fun _ _ ha => ih (h.pushF (H.unF o ha))
  | invF i p ih => exact rel_bind (rel_get h.sc i) fun _ _ ha => rel_bind (H.invF ha) fun _ _ hx => ih (h.pushF hx)
  | outF i p ih =>
    exact rel_bind (rel_get h.sc i) fun a b ha => by rw [H.outF ha]; exact rel_see (ih _ h) _
  | gen1 p ih => exact ih (h.push1 H.gen1)
  | inf1 p ih => exact ih (h.push1 H.inf1)
  | bin1 o i j p ih =>
    exact rel_bind (rel_get h.g1 i) fun _ _ ha => rel_bind (rel_get h.g1 j) fun _ _ hb => ih (h.push1 (H.bin1 o ha hb))
  | un1 o i p ih => exact rel_bind (rel_get h.g1 i) fun _ _ ha => ih (h.push1 (H.un1 o ha))
  | mul1 o i k p ih =>
    exact rel_bind (rel_get h.g1 i) fun _ _ ha => rel_bind (rel_get h.sc k) fun _ _ hb => ih (h.push1 (H.mul1 o ha hb))
  | out1 i p ih =>
    exact rel_bind (rel_get h.g1 i) fun a b ha => by rw [H.out1 ha]; exact rel_see (ih _ h) _
  | read1 b hb p ih => exact rel_bind (H.read1 b hb) fun _ _ hx => ih (h.push1 hx)
  | gen2 p ih => exact ih (h.push2 H.gen2)
  | inf2 p ih => exact ih (h.push2 H.inf2)
  | bin2 o i j p ih =>
    exact rel_bind (rel_get h.g2 i) fun _ _ ha => rel_bind (rel_get h.g2 j) fun _ _ hb => ih (h.push2 (H.bin2 o ha hb))
  | un2 o i p ih => exact rel_bind (rel_get h.g2 i) fun _ _ ha => ih (h.push2 (H.un2 o ha))
  | mul2 o i k p ih =>
    exact rel_bind (rel_get h.g2 i) fun _ _ ha => rel_bind (rel_get h.sc k) fun _ _ hb => ih (h.push2 (H.mul2 o ha hb))
  | out2 i p ih =>
    exact rel_bind (rel_get h.g2 i) fun a b ha => by rw [H.out2 ha]; exact rel_see (ih _ h) _
  | read2 b hb p ih => exact rel_bind (H.read2 b hb) fun _ _ hx => ih (h.push2 hx)
  | pair i j p ih =>
    exact rel_bind (rel_get h.g1 i) fun _ _ ha => rel_bind (rel_get h.g2 j) fun _ _ hb =>
      rel_bind (H.pair ha hb) fun _ _ hx => ih (h.pushT hx)
  | pairs l p ih =>
    exact rel_bind (h.points l) fun _ _ hl => rel_bind (H.pairs hl) fun _ _ hx => ih (h.pushT hx)
  | oneT p ih => exact ih (h.pushT H.oneT)
  | mulT i j p ih =>
    exact rel_bind (rel_get h.gt i) fun _ _ ha => rel_bind (rel_get h.gt j) fun _ _ hb => ih (h.pushT (H.mulT ha hb))
  | unT o i p ih => exact rel_bind (rel_get h.gt i) fun _ _ ha => ih (h.pushT (H.unT o ha))
  | invT i p ih => exact rel_bind (rel_get h.gt i) fun _ _ ha => rel_bind (H.invT ha) fun _ _ hx => ih (h.pushT hx)
  | expT i k p ih =>
    exact rel_bind (rel_get h.gt i) fun _ _ ha => rel_bind (rel_get h.sc k) fun _ _ hb => ih (h.pushT (H.expT ha hb))
  | test t p ih =>
    exact rel_bind (H.test h t) fun a b hab => by subst hab; exact rel_see (ih _ h) _

end Bls.Groups
