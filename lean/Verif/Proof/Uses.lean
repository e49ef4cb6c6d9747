import Verif.Spec.Uses
import Verif.Proof.Groups
/-
Two packages whose functions agree up to a relation between keys and signatures give related variables and the same
observations in every program.
-/
namespace Bls.Uses

open Groups (rel_bind rel_map rel_get rel_push rel_of_eq)

variable {K P S K' P' S' : Type} {s : Setting}

/-- The functions agree up to relations between the values. -/
structure Related (s : Setting) (G : Package K P S) (G' : Package K' P' S') (RK : K → K' → Prop) (RP : P → P' → Prop)
    (RS : S → S' → Prop) : Prop where
  readKey : ∀ b, b.length = 32 → RK (G.readKey b) (G'.readKey b)
  derive : ∀ b, Option.Rel RK (G.derive b) (G'.derive b)
  writeKey : ∀ {k k'}, RK k k' → G.writeKey k = G'.writeKey k'
  privToPub : ∀ {k k'}, RK k k' → Option.Rel RP (G.privToPub k) (G'.privToPub k')
  readPub : ∀ b, b.length = s.pubLength → Option.Rel RP (G.readPub b) (G'.readPub b)
  writePub : ∀ {x x'}, RP x x' → G.writePub x = G'.writePub x'
  equalPub : ∀ {x x' y y'}, RP x x' → RP y y' → G.equalPub x y = G'.equalPub x' y'
  newPub : RP G.newPub G'.newPub
  addPub : ∀ {x x' y y'}, RP x x' → RP y y' → RP (G.addPub x y) (G'.addPub x' y')
  sumPub : ∀ {l l'}, List.Forall₂ RP l l' → RP (G.sumPub l) (G'.sumPub l')
  readSig : ∀ b, b.length = s.sigLength → Option.Rel RS (G.readSig b) (G'.readSig b)
  writeSig : ∀ {x x'}, RS x x' → G.writeSig x = G'.writeSig x'
  newSig : RS G.newSig G'.newSig
  addSig : ∀ {x x' y y'}, RS x x' → RS y y' → RS (G.addSig x y) (G'.addSig x' y')
  sumSig : ∀ {l l'}, List.Forall₂ RS l l' → RS (G.sumSig l) (G'.sumSig l')
  sign : ∀ {m k k'}, s.msg m → RK k k' → Option.Rel RS (G.sign m k) (G'.sign m k')
  verify : ∀ {m x x' y y'}, s.msg m → RP x x' → RS y y' → G.verify m x y = G'.verify m x' y'
  verifyCommon : ∀ {m l l' y y'}, s.msg m → List.Forall₂ RP l l' → RS y y' →
    G.verifyCommon m l y = G'.verifyCommon m l' y'
  verifyAggregate : ∀ {ms l l' y y'}, (∀ m ∈ ms, s.msg m) → List.Forall₂ RP l l' → RS y y' →
    G.verifyAggregate ms l y = G'.verifyAggregate ms l' y'
  signIn : ∀ {d m k k'}, s.msgIn d m → RK k k' → Option.Rel RS (G.signIn d m k) (G'.signIn d m k')
  verifyIn : ∀ {d m x x' y y'}, s.msgIn d m → RP x x' → RS y y' → G.verifyIn d m x y = G'.verifyIn d m x' y'
  verifyCommonIn : ∀ {d m l l' y y'}, s.msgIn d m → List.Forall₂ RP l l' → RS y y' →
    G.verifyCommonIn d m l y = G'.verifyCommonIn d m l' y'
  verifyAggregateIn : ∀ {d ms l l' y y'}, s.domains → (∀ m ∈ ms, s.msgIn d m) → List.Forall₂ RP l l' → RS y y' →
    G.verifyAggregateIn d ms l y = G'.verifyAggregateIn d ms l' y'

variable {G : Package K P S} {G' : Package K' P' S'} {RK : K → K' → Prop} {RP : P → P' → Prop} {RS : S → S' → Prop}
  {v : Vars K P S} {w : Vars K' P' S'}

theorem Match.pushK (h : Match RK RP RS v w) {x : K} {y : K'} (hx : RK x y) : Match RK RP RS (v.pushK x) (w.pushK y) :=
  ⟨rel_push h.1 hx, h.2, h.3⟩
theorem Match.pushP (h : Match RK RP RS v w) {x : P} {y : P'} (hx : RP x y) : Match RK RP RS (v.pushP x) (w.pushP y) :=
  ⟨h.1, rel_push h.2 hx, h.3⟩
theorem Match.pushS (h : Match RK RP RS v w) {x : S} {y : S'} (hx : RS x y) : Match RK RP RS (v.pushS x) (w.pushS y) :=
  ⟨h.1, h.2, rel_push h.3 hx⟩

theorem rel_pick {α β : Type} {R : α → β → Prop} {l : List α} {m : List β} (h : List.Forall₂ R l m) (is : List Nat) :
    Option.Rel (List.Forall₂ R) (pick l is) (pick m is) := by
  induction is with
  | nil => exact .some .nil
  | cons i is ih => exact rel_bind (rel_get h i) fun _ _ hx => rel_map ih fun _ _ ht => .cons hx ht

/-- What two runs give: related variables, and the same observations. -/
abbrev RunRel (RK : K → K' → Prop) (RP : P → P' → Prop) (RS : S → S' → Prop) :
    Vars K P S × List Obs → Vars K' P' S' × List Obs → Prop := fun x y => Match RK RP RS x.1 y.1 ∧ x.2 = y.2

theorem rel_see {x : Option (Vars K P S × List Obs)} {y : Option (Vars K' P' S' × List Obs)}
    (h : Option.Rel (RunRel RK RP RS) x y) (o : Obs) : Option.Rel (RunRel RK RP RS) (see o x) (see o y) :=
  rel_map h fun _ _ hab => ⟨hab.1, by rw [hab.2]⟩

theorem rel_ask {x : Option Bool} {y : Option Bool} (e : x = y)
    {f : Bool → Option (Vars K P S × List Obs)} {g : Bool → Option (Vars K' P' S' × List Obs)}
    (h : ∀ b, Option.Rel (RunRel RK RP RS) (f b) (g b)) :
    Option.Rel (RunRel RK RP RS) (x.bind fun b => see (.bool b) (f b)) (y.bind fun b => see (.bool b) (g b)) :=
  rel_bind (rel_of_eq e) fun a b hab => by subst hab; exact rel_see (h _) _

theorem Related.run (H : Related s G G' RK RP RS) (p : Prog s) (h : Match RK RP RS v w) :
    Option.Rel (RunRel RK RP RS) (p.run G v) (p.run G' w) := by
  induction p generalizing v w with
  | done => exact .some ⟨h, rfl⟩
  | readKey b hb p ih => exact ih (h.pushK (H.readKey b hb))
  | derive b p ih => exact rel_bind (H.derive b) fun _ _ hx => ih (h.pushK hx)
  | writeKey i p ih =>
    exact rel_bind (rel_get h.keys i) fun _ _ hk => rel_bind (rel_of_eq (H.writeKey hk)) fun a b hab => by
      subst hab; exact rel_see (ih _ h) _
  | privToPub i p ih =>
    exact rel_bind (rel_get h.keys i) fun _ _ hk => rel_bind (H.privToPub hk) fun _ _ hx => ih (h.pushP hx)
  | readPub b hb p err ih ih' =>
    have hx := H.readPub b hb
    unfold Prog.run
    generalize G.readPub b = x at hx
    generalize G'.readPub b = y at hx
    cases hx with
    | none => exact rel_see (ih' h) _
    | some hx => exact rel_see (ih (h.pushP hx)) _
  | writePub i p ih =>
    exact rel_bind (rel_get h.pubs i) fun a b ha => by rw [H.writePub ha]; exact rel_see (ih _ h) _
  | equalPub i j p ih =>
    exact rel_bind (rel_get h.pubs i) fun a b ha => rel_bind (rel_get h.pubs j) fun c d hc => by
      rw [H.equalPub ha hc]; exact rel_see (ih _ h) _
  | newPub p ih => exact ih (h.pushP H.newPub)
  | addPub i j p ih =>
    exact rel_bind (rel_get h.pubs i) fun _ _ ha => rel_bind (rel_get h.pubs j) fun _ _ hb => ih (h.pushP (H.addPub ha hb))
  | sumPub l p ih => exact rel_bind (rel_pick h.pubs l) fun _ _ hl => ih (h.pushP (H.sumPub hl))
  | readSig b hb p err ih ih' =>
    have hx := H.readSig b hb
    unfold Prog.run
    generalize G.readSig b = x at hx
    generalize G'.readSig b = y at hx
    cases hx with
    | none => exact rel_see (ih' h) _
    | some hx => exact rel_see (ih (h.pushS hx)) _
  | writeSig i p ih =>
    exact rel_bind (rel_get h.sigs i) fun a b ha => by rw [H.writeSig ha]; exact rel_see (ih _ h) _
  | newSig p ih => exact ih (h.pushS H.newSig)
  | addSig i j p ih =>
    exact rel_bind (rel_get h.sigs i) fun _ _ ha => rel_bind (rel_get h.sigs j) fun _ _ hb => ih (h.pushS (H.addSig ha hb))
  | sumSig l p ih => exact rel_bind (rel_pick h.sigs l) fun _ _ hl => ih (h.pushS (H.sumSig hl))
  | sign m hm i p ih =>
    exact rel_bind (rel_get h.keys i) fun _ _ hk => rel_bind (H.sign hm hk) fun _ _ hx => ih (h.pushS hx)
  | verify m hm i j p ih =>
    exact rel_bind (rel_get h.pubs i) fun _ _ ha => rel_bind (rel_get h.sigs j) fun _ _ hb =>
      rel_ask (H.verify hm ha hb) fun b => ih b h
  | verifyCommon m hm l j p ih =>
    exact rel_bind (rel_pick h.pubs l) fun _ _ ha => rel_bind (rel_get h.sigs j) fun _ _ hb =>
      rel_ask (H.verifyCommon hm ha hb) fun b => ih b h
  | verifyAggregate ms hm l j p ih =>
    exact rel_bind (rel_pick h.pubs l) fun _ _ ha => rel_bind (rel_get h.sigs j) fun _ _ hb =>
      rel_ask (H.verifyAggregate hm ha hb) fun b => ih b h
  | signIn d m hm i p ih =>
    exact rel_bind (rel_get h.keys i) fun _ _ hk => rel_bind (H.signIn hm hk) fun _ _ hx => ih (h.pushS hx)
  | verifyIn d m hm i j p ih =>
    exact rel_bind (rel_get h.pubs i) fun _ _ ha => rel_bind (rel_get h.sigs j) fun _ _ hb =>
      rel_ask (H.verifyIn hm ha hb) fun b => ih b h
  | verifyCommonIn d m hm l j p ih =>
    exact rel_bind (rel_pick h.pubs l) fun _ _ ha => rel_bind (rel_get h.sigs j) fun _ _ hb =>
      rel_ask (H.verifyCommonIn hm ha hb) fun b => ih b h
  | verifyAggregateIn hd d ms hm l j p ih =>
    exact rel_bind (rel_pick h.pubs l) fun _ _ ha => rel_bind (rel_get h.sigs j) fun _ _ hb =>
      rel_ask (H.verifyAggregateIn hd hm ha hb) fun b => ih b h

end Bls.Uses
