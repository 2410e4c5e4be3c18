import Verif.Model.Eval

/-!
# Acme

`BLE/acme_utils.py`: the evaluation environment and the exploring actor. Acme itself (environment loop, wrappers,
actors, networks) is not part of the repository; an actor is a state with four methods.
-/

namespace BLE

open Classical in
/-- `acme_utils.py:51-56` — `_balloon_is_within_radius`: the reward of the evaluation environment. A Boolean divided
by an integer. -/
noncomputable def acmeReward (radius : ℝ) (maxLen : ℤ) (b : BState) : Except Err ℝ :=
  if maxLen = 0 then .error .zeroDivision
  else .ok ((if withinRadius b radius then 1 else 0) / (maxLen : ℝ))

/-- `acme_utils.py:59-75` — the configuration of the environment that `create_env` builds. In evaluation the radius
is that of a first environment built with default arguments (`radius`), and the environment returned is built with
default arguments as well. The wrappers around it are Acme's. -/
noncomputable def acmeCfg {K W Rd : Type} (c : EnvCfg K W Rd) (isEval : Bool) (maxLen : ℤ) (radius : ℝ) : EnvCfg K W Rd :=
  if isEval then { c with rewardFn := acmeReward radius maxLen } else c

/-- `dm_env.TimeStep`, as far as it is used; in the first one of an episode `reward` is unused and there is no discount.
(`acme_utils.py:176-182`) -/
structure TimeStep where
  obs : List ℝ
  reward : ℝ
  last : Bool
  discount : Option ℝ

/-- `acme.core.Actor`: what Acme's environment loop calls. (`acme_utils.py:160-185`) -/
structure Actor (S : Type) where
  select : S → List ℝ → S × Except Err ℤ
  observeFirst : S → TimeStep → S × Except Err Unit
  observe : S → ℤ → TimeStep → S
  update : S → S

/-- `acme_utils.py:160-185` — `CombinedActor`. The conversion of the action to `int32` is the identity on actions.
The action returned by `begin_episode` is discarded. -/
def combinedActor {S X : Type} (B : Actor S) (E : Explorer X) : Actor (S × X) where
  select s obs :=
    let q := B.select s.1 obs
    match q.2 with
    | .error e => ((q.1, s.2), .error e)
    | .ok a =>
      let x := E.step s.2 0 obs a
      ((q.1, x.1), x.2)
  observeFirst s t :=
    let q := B.observeFirst s.1 t
    match q.2 with
    | .error e => ((q.1, s.2), .error e)
    | .ok () =>
      let x := E.beginEpisode s.2 t.obs 42
      ((q.1, x.1), match x.2 with
        | .error e => .error e
        | .ok _ => .ok ())
  observe s a t := (B.observe s.1 a t, s.2)
  update s := (B.update s.1, s.2)

/-- What `make_actor` returns: the original actor or a combined one, with its initial state.
(`acme_utils.py:190-208`) -/
inductive MadeActor (S X : Type) where
  | plain (A : Actor S) (s : S)
  | exploring (A : Actor (S × X)) (s : S × X)

/-- `acme_utils.py:188-210` — the function built by `marco_polo_actor`; `orig` is the result of the wrapped
`make_actor_fn`, `key` the generator of the exploration object, `agent` its random walk. -/
noncomputable def marcoPoloActor {K S X : Type} (J : Jax K) (E : Agent X) (orig : Actor S × S) (adder : Bool) (key : K)
    (agent : X) : MadeActor S (Marco K X) :=
  if ¬ adder then .plain orig.1 orig.2
  else .exploring (combinedActor orig.1 (marcoPolo J E))
    (orig.2, { agent := agent, prob := 0.8, episode := false, phase := false, elapsed := 0, rng := key })

end BLE
