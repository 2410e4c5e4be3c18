import Verif.Model.StableInit
import Verif.Model.Features
import Verif.Model.Reward
import Mathlib.Logic.Function.Basic

/-!
# Arena and environment

`BLE/env/balloon_arena.py`, `BLE/env/balloon_env.py`, `BLE/env/simulator_data.py`.

Mutable objects live in a heap and are referred to by number, because the code shares them: the arena, the
feature constructor and whoever called `get_simulator_state` all hold references to the same
`BalloonState`, `WindField` and `Atmosphere` objects. (The wind estimator's reference to the wind field
is followed here; see `Feat.view`.)
-/

namespace BLE

/-! ## Objects -/

/-- The mutable objects of the simulator. Numbers are object identities; `nextBall` has not been used for
a balloon state yet. An atmosphere is its blend parameter. (`balloon_arena.py:143-159`) -/
structure Heap (W : Type) where
  balls : ℕ → BState
  nextBall : ℕ
  winds : ℕ → WindField W
  atms : ℕ → ℝ

/-- `features.py:273-297` — the feature constructor with its references. -/
structure Feat where
  wind : ℕ
  atm : ℕ
  data : List (Row × (ℝ × ℝ))
  last : Option ℕ

/-- `balloon_arena.py:126-159` — the arena. `ball` refers to `self._balloon.state` (`none` before the
first reset), `rng` is `self._rng`. -/
structure Arena (K W : Type) where
  heap : Heap W
  rng : K
  wind : ℕ
  atm : ℕ
  ball : Option ℕ
  feat : Option Feat

/-- Everything external the arena depends on: random numbers, the noise function, the wind field class, the
Gaussian-process regressor and the ephemeris. (`balloon_arena.py:126-182`) -/
structure World (K W : Type) where
  J : Jax K
  nz : Noise4d
  C : WindClass K W
  R : Regressor
  sun : Sun

variable {K W : Type}

/-- The feature constructor with its references followed. (`features.py:295-297`) -/
def Feat.view (E : World K W) (h : Heap W) (F : Feat) : FeatState :=
  { gp := { data := F.data, forecast := Forecaster.of E.C (h.winds F.wind).sub }, α := h.atms F.atm,
    last := F.last.map h.balls }

/-! ## Starting an episode -/

/-- `balloon.py:150-215` — `BalloonState(center_latlng, x, y, pressure, date_time, upwelling_infrared)`:
defaults and `__post_init__`, which constructs the safety layers and may raise. -/
noncomputable def newBalloonState (sun : Sun) (center : LatLng) (x y p : ℝ) (date : ℤ) (ir : ℝ) :
    Except Err BState :=
  let l := latlngFromOffset center x y
  match nextSunriseSunset (fun t => (sun l t).el) (degrees l.lat) date searchDelta with
  | .error e => .error e
  | .ok r => .ok {
      center := center, dateTime := date, timeElapsed := 0, volBase := 1804, dvdp := 0.0199, envMass := 68.5
      maxSp := 2380, cod := 0.25, payload := 92.5, nightLoad := 183.7, dayLoad := 120.4, valveDiam := 0.04
      cap := 3058.56, x := x, y := y, pressure := p, ambT := 206, molsLift := 6830, molsAir := 0, intT := 206
      vol := 1804, sp := 0, acsPower := 0, acsFlow := 0, solarCharging := 0, powerLoad := 0, charge := 2905.6
      lastCommand := .stay, status := .ok, powerEnabled := true, power := PowerLayer.new r.1 r.2
      env := EnvLayer.new 2380, alt := .nominal, upwelling := ir }

/-- `sampling.py:67-68` — 1 January 2011 and 31 December 2014, microseconds since the epoch. -/
def timeBegin : ℤ := 1293840000 * usPerSec
/-- `sampling.py:68` -/
def timeEnd : ℤ := 1419984000 * usPerSec

/-- `balloon_arena.py:228-268` — `_initialize_balloon`, with `self._rng = rng` on entry. -/
noncomputable def initBalloon (E : World K W) (α : ℝ) (rng : K) (date : ℤ) : Except Err BState := do
  let key (i : ℕ) := E.J.split rng 6 (i + 1)
  let radius := 200 * E.J.beta (key 0) * 1000
  let theta := uniform 0 (2 * Real.pi) (E.J.uniform (key 1))
  let loc := sampleLocation (E.J.uniform (E.J.split (key 2) 2 0)) (E.J.uniform (E.J.split (key 2) 2 1))
  let p ← samplePressure (E.J.uniform (key 3)) (some α)
  let b ← newBalloonState E.sun ⟨radians loc.1, radians loc.2⟩ (Real.cos theta * radius) (Real.sin theta * radius) p
    date (E.J.upwelling (key 4))
  coldStart E.sun α b

/-- `balloon_arena.py:270-275` — `_get_wind_ground_truth_at_balloon`. -/
noncomputable def windAtBalloon (E : World K W) (w : WindField W) (b : BState) : Except Err (ℝ × ℝ) :=
  groundTruth E.nz E.C w b.x b.y b.pressure b.timeElapsed

/-- `balloon_arena.py:181-182, 200-202, 222-226` — measure, let the feature constructor observe, and return its
features. `i` refers to the balloon state, `F` is the feature constructor. -/
noncomputable def Arena.measure (E : World K W) (A : Arena K W) (i : ℕ) (F : Feat) : Arena K W × Except Err (List ℝ) :=
  match windAtBalloon E (A.heap.winds A.wind) (A.heap.balls i) with
  | .error e => (A, .error e)
  | .ok w =>
    let r := (F.view E A.heap).observe (A.heap.balls i) w
    let F' := { F with data := r.1.gp.data, last := some i }
    let A' := { A with feat := some F' }
    match r.2 with
    | .error e => (A', .error e)
    | .ok () => (A', (F'.view E A'.heap).features E.R E.sun)

/-- `balloon_arena.py:161-182` — `reset`, given the key: the mutated arena and the outcome. -/
noncomputable def Arena.reset (E : World K W) (key : K) (A : Arena K W) : Arena K W × Except Err (List ℝ) :=
  let α := E.J.uniform (E.J.split key 3 1)
  let date := sampleTime timeBegin (E.J.choice (E.J.split key 3 2) (sampleTimeCount timeBegin timeEnd).toNat)
  let rng := E.J.split key 3 0
  let rng1 := E.J.split rng 6 0
  let A1 := { A with heap := { A.heap with atms := Function.update A.heap.atms A.atm α }, rng := rng1 }
  match initBalloon E α rng date with
  | .error e => (A1, .error e)
  | .ok b =>
    let i := A.heap.nextBall
    let A2 := { A1 with
      heap := { A1.heap with balls := Function.update A1.heap.balls i b, nextBall := i + 1 }, ball := some i }
    if b.status ≠ .ok then (A2, .error .assertion)
    else
      let w := (A2.heap.winds A.wind).reset E.J E.C (E.J.split rng1 2 1) date
      let A3 := { A2 with
        rng := E.J.split rng1 2 0
        heap := { A2.heap with winds := Function.update A2.heap.winds A.wind w } }
      let F : Feat := { wind := A.wind, atm := A.atm, data := [], last := none }
      Arena.measure E { A3 with feat := some F } i F

/-- `constants.py:35` — `AGENT_TIME_STEP`, three minutes, and the default stride of
`Balloon.simulate_step` (`balloon.py:269`), ten seconds. -/
def agentStep : ℤ := 180 * usPerSec
/-- `balloon.py:269` -/
def defaultStride : ℤ := 10 * usPerSec

/-- In-place mutation of balloon state `i`. (`balloon_arena.py:197-198`) -/
def Arena.mutate (A : Arena K W) (i : ℕ) (b : BState) : Arena K W :=
  { A with heap := { A.heap with balls := Function.update A.heap.balls i b } }

/-- `balloon_arena.py:184-202` — `step`. -/
noncomputable def Arena.step (E : World K W) (a : Command) (A : Arena K W) : Arena K W × Except Err (List ℝ) :=
  match A.ball with
  | none => (A, .error .attribute)
  | some i =>
    match windAtBalloon E (A.heap.winds A.wind) (A.heap.balls i) with
    | .error e => (A, .error e)
    | .ok w =>
      let r := simulateStep E.sun (A.heap.atms A.atm) w.1 w.2 a agentStep defaultStride (A.heap.balls i)
      let A1 := A.mutate i r.1
      match r.2 with
      | .error e => (A1, .error e)
      | .ok () =>
        match A1.feat with
        | none => (A1, .error .attribute)
        | some F => Arena.measure E A1 i F

/-! ## Saving and restoring -/

/-- `simulator_data.py:25-34` — `SimulatorState`: three references. -/
structure SimState where
  ball : ℕ
  wind : ℕ
  atm : ℕ

/-- `balloon_arena.py:204-207, 216-217` — `get_simulator_state`. -/
def Arena.getState (A : Arena K W) : Except Err SimState :=
  match A.ball with
  | none => .error .attribute
  | some i => .ok { ball := i, wind := A.wind, atm := A.atm }

/-- `balloon_arena.py:209-214, 219-220` — `set_simulator_state`; with no balloon yet the first assignment raises
and the other two are not reached. -/
def Arena.setState (st : SimState) (A : Arena K W) : Arena K W × Except Err Unit :=
  match A.ball with
  | none => (A, .error .attribute)
  | some _ => ({ A with ball := some st.ball, wind := st.wind, atm := st.atm }, .ok ())

/-! ## The environment -/

/-- A renderer (external, `BLE/env/rendering/renderer.py:26-62`). -/
structure Renderer (W Rd : Type) where
  reset : Rd → Rd
  step : Rd → BState → WindField W → ℝ → Rd
  render : Rd → Rd

/-- `balloon_env.py:105-155` — the environment. `renderer` is the state of the optional renderer. What the
remaining methods answer is constant: `unwrapped` and `__enter__` the object itself, `__str__` a name, and closing it does
nothing (`balloon_env.py:249-251, 257-259, 292-300`); `get_simulator_state` (`:276-278`) is the arena's `getState`. -/
structure Env (K W Rd : Type) where
  arena : Arena K W
  rng : K
  radius : ℝ
  iteration : ℕ
  renderer : Option Rd

/-- `balloon_env.py:280-290` — `_get_info`. -/
structure Info where
  outOfPower : Bool
  envelopeBurst : Bool
  zeropressure : Bool
  timeElapsed : ℤ

/-- `balloon_env.py:280-290` -/
def getInfo (b : BState) : Info :=
  { outOfPower := b.status = .outOfPower, envelopeBurst := b.status = .burst, zeropressure := b.status = .zeropressure,
    timeElapsed := b.timeElapsed }

/-- What `step` returns. (`balloon_env.py:190`) -/
structure StepOut where
  obs : List ℝ
  reward : ℝ
  terminal : Bool
  info : Info

/-- What the environment is configured with. (`balloon_env.py:109-155`) -/
structure EnvCfg (K W Rd : Type) where
  world : World K W
  rewardFn : BState → Except Err ℝ
  render : Renderer W Rd

variable {Rd : Type}

/-- `balloon_env.py:174-175, 216-218` — show the current state to the renderer, if there is one. -/
def Env.renderStep (c : EnvCfg K W Rd) (A : Arena K W) (i : ℕ) (r : Option Rd) : Option Rd :=
  r.map fun rd => c.render.step rd (A.heap.balls i) (A.heap.winds A.wind) (A.heap.atms A.atm)

/-- `balloon_env.py:157-190` — `step`. -/
noncomputable def Env.step (c : EnvCfg K W Rd) (action : ℤ) (v : Env K W Rd) : Env K W Rd × Except Err StepOut :=
  match Command.ofInt action with
  | .error e => (v, .error e)
  | .ok a =>
    let r := Arena.step c.world a v.arena
    let v1 := { v with arena := r.1 }
    match r.2 with
    | .error e => (v1, .error e)
    | .ok obs =>
      match v1.arena.ball with
      | none => (v1, .error .attribute)
      | some i =>
        let v2 := { v1 with renderer := Env.renderStep c v1.arena i v1.renderer }
        let b := v2.arena.heap.balls i
        match c.rewardFn b with
        | .error e => (v2, .error e)
        | .ok rew =>
          let info := getInfo b
          ({ v2 with iteration := v2.iteration + 1 }, .ok
            { obs := obs, reward := rew, terminal := info.outOfPower || info.envelopeBurst || info.zeropressure
              info := info })

/-- `balloon_env.py:253-255` — `seed`. -/
def Env.seed (c : EnvCfg K W Rd) (s : ℤ) (v : Env K W Rd) : Env K W Rd := { v with rng := c.world.J.prngKey s }

/-- `balloon_env.py:192-226` — `reset`; the info dictionary is `getInfo` of the balloon and is always
returned here. -/
noncomputable def Env.reset (c : EnvCfg K W Rd) (seed : Option ℤ) (v : Env K W Rd) :
    Env K W Rd × Except Err (List ℝ × Info) :=
  let v0 := match seed with
    | some s => v.seed c s
    | none => v
  let v1 := { v0 with rng := c.world.J.split v0.rng 2 0 }
  let r := Arena.reset c.world (c.world.J.split v0.rng 2 1) v1.arena
  let v2 := { v1 with arena := r.1 }
  match r.2 with
  | .error e => (v2, .error e)
  | .ok obs =>
    match v2.arena.ball with
    | none => (v2, .error .attribute)
    | some i =>
      ({ v2 with renderer := Env.renderStep c v2.arena i (v2.renderer.map c.render.reset) },
        .ok (obs, getInfo (v2.arena.heap.balls i)))

/-- `balloon_env.py:228-247` — `render`; nothing happens without a renderer. -/
def Env.render (c : EnvCfg K W Rd) (v : Env K W Rd) : Env K W Rd := { v with renderer := v.renderer.map c.render.render }

/-- `balloon_arena.py:126-159` — `BalloonArena.__init__`; `clock` is `int(time.time() * 1e6)` at the
implicit reset. The wind field is object 0, the atmosphere object 0 (seeded with `PRNGKey(0)` first). -/
noncomputable def Arena.new (E : World K W) (w : WindField W) (dead : BState) (clock : ℤ) :
    Arena K W × Except Err (List ℝ) :=
  Arena.reset E (E.J.prngKey clock)
    { heap := { balls := fun _ => dead, nextBall := 0, winds := fun _ => w
                atms := fun _ => E.J.uniform (E.J.prngKey 0) }
      rng := E.J.prngKey 0, wind := 0, atm := 0, ball := none, feat := none }

/-- `balloon_env.py:109-155` — `BalloonEnv.__init__` with the default arena; `clock1`, `clock2` are the
times read when no seed is given. `dead` is the content of unused heap cells. -/
noncomputable def Env.new (c : EnvCfg K W Rd) (w : WindField W) (dead : BState) (radiusKm : ℝ) (seed : Option ℤ)
    (rd : Option Rd) (clock1 clock2 : ℤ) : Except Err (Env K W Rd) :=
  let r := Arena.new c.world w dead clock1
  match r.2 with
  | .error e => .error e
  | .ok _ =>
    let v : Env K W Rd := { arena := r.1, rng := c.world.J.prngKey 0, radius := radiusKm * 1000, iteration := 0, renderer := rd }
    let q := Env.reset c (some (seed.getD clock2)) v
    match q.2 with
    | .error e => .error e
    | .ok _ => .ok q.1

end BLE
