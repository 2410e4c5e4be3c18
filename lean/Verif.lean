import Verif.Props.Acme
import Verif.Props.AcmePolicy
import Verif.Props.AcmeTrain
import Verif.Props.Acs
import Verif.Props.Afternoon
import Verif.Props.Agents
import Verif.Props.Aloft
import Verif.Props.Atmosphere
import Verif.Props.Balloon
import Verif.Props.Calendar
import Verif.Props.Charged
import Verif.Props.Checkpoint
import Verif.Props.Commands
import Verif.Props.Control
import Verif.Props.Cutting
import Verif.Props.DateTime
import Verif.Props.DayPower
import Verif.Props.Decoupled
import Verif.Props.Dopamine
import Verif.Props.Elsewhere
import Verif.Props.Endurance
import Verif.Props.Env
import Verif.Props.Envelope
import Verif.Props.Ephemeris
import Verif.Props.Episode
import Verif.Props.EpisodeStart
import Verif.Props.Eval
import Verif.Props.Evaluates
import Verif.Props.FailureModes
import Verif.Props.Features
import Verif.Props.Flight
import Verif.Props.FlightView
import Verif.Props.Float
import Verif.Props.FloatRange
import Verif.Props.Generative
import Verif.Props.Generous
import Verif.Props.Geometry
import Verif.Props.Gym
import Verif.Props.Heat
import Verif.Props.Hidden
import Verif.Props.Independent
import Verif.Props.Json
import Verif.Props.Learning
import Verif.Props.Networks
import Verif.Props.NightBudget
import Verif.Props.NightReserve
import Verif.Props.Observable
import Verif.Props.Onlooker
import Verif.Props.PauseEnds
import Verif.Props.PowerClock
import Verif.Props.PressureRange
import Verif.Props.R2D2
import Verif.Props.Reach
import Verif.Props.Reachable
import Verif.Props.RealNight
import Verif.Props.RealSun
import Verif.Props.Rendering
import Verif.Props.Replay
import Verif.Props.Reward
import Verif.Props.RunSeed
import Verif.Props.SafeStart
import Verif.Props.Safety
import Verif.Props.Seeker
import Verif.Props.SolarSearch
import Verif.Props.StableInit
import Verif.Props.Suites
import Verif.Props.Summary
import Verif.Props.SunLight
import Verif.Props.Sunrise
import Verif.Props.SunriseLate
import Verif.Props.Superposed
import Verif.Props.Thermal
import Verif.Props.TimeWithin
import Verif.Props.Train
import Verif.Props.TrainCommand
import Verif.Props.TrainedEval
import Verif.Props.Trains
import Verif.Props.Turned
import Verif.Props.Units
import Verif.Props.Unseen
import Verif.Props.Vae
import Verif.Props.Wind
import Verif.Props.WindAnim
import Verif.Props.WindBelief
import Verif.Props.WindColumn
import Verif.Props.WindGP
import Verif.Audit
