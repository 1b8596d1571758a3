import Verif.Model.Base
import Verif.Model.Camera
import Verif.Model.CameraFrame
import Verif.Model.Choices
import Verif.Model.Compress
import Verif.Model.Config
import Verif.Model.ConfigText
import Verif.Model.Cyclic
import Verif.Model.Ekf
import Verif.Model.Eval
import Verif.Model.EvalReads
import Verif.Model.FeatureTracker
import Verif.Model.FidUpdater
import Verif.Model.Gps
import Verif.Model.GpsInit
import Verif.Model.GpsUpdater
import Verif.Model.Ids
import Verif.Model.ImuUpdater
import Verif.Model.Linear3
import Verif.Model.LogFiles
import Verif.Model.LogRows
import Verif.Model.Logger
import Verif.Model.MathHelper
import Verif.Model.MonteCarlo
import Verif.Model.MsckfUpdater
import Verif.Model.Nees
import Verif.Model.Params
import Verif.Model.Prim
import Verif.Model.RosLogger
import Verif.Model.RosNode
import Verif.Model.Rotation
import Verif.Model.SimFeatures
import Verif.Model.SimMeasure
import Verif.Model.SimNoise
import Verif.Model.SimSetup
import Verif.Model.SimStart
import Verif.Model.SimText
import Verif.Model.Simulation
import Verif.Model.Smoother
import Verif.Model.SplineTruth
import Verif.Model.StateVector
import Verif.Model.Station
import Verif.Model.Types
import Verif.Model.Waypoints
import Verif.Spec.Align
import Verif.Spec.Baseline
import Verif.Spec.CamRows
import Verif.Spec.CameraFrame
import Verif.Spec.Choices
import Verif.Spec.ClockShift
import Verif.Spec.Collections
import Verif.Spec.Config
import Verif.Spec.ConfigText
import Verif.Spec.Correct
import Verif.Spec.Cov
import Verif.Spec.Csv
import Verif.Spec.Derivative
import Verif.Spec.Deviation
import Verif.Spec.Digits
import Verif.Spec.Displaced
import Verif.Spec.Eval
import Verif.Spec.Geodetic
import Verif.Spec.GpsEvidence
import Verif.Spec.Grid
import Verif.Spec.Heading
import Verif.Spec.Joint
import Verif.Spec.Kept
import Verif.Spec.Kinematics
import Verif.Spec.LawSamples
import Verif.Spec.Layout
import Verif.Spec.Logger
import Verif.Spec.Machine
import Verif.Spec.Matches
import Verif.Spec.Matrix
import Verif.Spec.Motion
import Verif.Spec.Named
import Verif.Spec.Noise
import Verif.Spec.Optimal
import Verif.Spec.Params
import Verif.Spec.Perturb
import Verif.Spec.Reduce
import Verif.Spec.Remembered
import Verif.Spec.Root
import Verif.Spec.RosNode
import Verif.Spec.Safe
import Verif.Spec.SafeCalls
import Verif.Spec.SameTime
import Verif.Spec.Samples
import Verif.Spec.Scaled
import Verif.Spec.Schedule
import Verif.Spec.Silent
import Verif.Spec.SimSetup
import Verif.Spec.SimText
import Verif.Spec.SimTrack
import Verif.Spec.Smoother
import Verif.Spec.Splits
import Verif.Spec.Stamps
import Verif.Spec.StateVector
import Verif.Spec.Station
import Verif.Spec.StationSamples
import Verif.Spec.Surer
import Verif.Spec.Tracks
import Verif.Spec.Triangulate
import Verif.Spec.Truth
import Verif.Spec.Turn
import Verif.Spec.Unit
import Verif.Spec.Update
import Verif.Spec.Visible
import Verif.Spec.Waypoints
import Verif.Spec.Weights
import Verif.Spec.Window
import Verif.Lemmas.AddZero
import Verif.Lemmas.Alg
import Verif.Lemmas.Align
import Verif.Lemmas.CamRows
import Verif.Lemmas.Clock
import Verif.Lemmas.ClockShift
import Verif.Lemmas.Clone
import Verif.Lemmas.Columns
import Verif.Lemmas.Comp
import Verif.Lemmas.Config
import Verif.Lemmas.Correct
import Verif.Lemmas.CovHist
import Verif.Lemmas.CovInv
import Verif.Lemmas.Csv
import Verif.Lemmas.Cyclic
import Verif.Lemmas.Defined
import Verif.Lemmas.Displaced
import Verif.Lemmas.Flags
import Verif.Lemmas.Forms
import Verif.Lemmas.Frame
import Verif.Lemmas.Frames
import Verif.Lemmas.Geodetic
import Verif.Lemmas.Givens
import Verif.Lemmas.Heading
import Verif.Lemmas.Inv
import Verif.Lemmas.Joint
import Verif.Lemmas.JointOps
import Verif.Lemmas.Kept
import Verif.Lemmas.Keys
import Verif.Lemmas.Layout
import Verif.Lemmas.Mat
import Verif.Lemmas.Matrix
import Verif.Lemmas.Named
import Verif.Lemmas.Noise
import Verif.Lemmas.Optimal
import Verif.Lemmas.Params
import Verif.Lemmas.Placed
import Verif.Lemmas.Predict
import Verif.Lemmas.Progress
import Verif.Lemmas.QuatMat
import Verif.Lemmas.RealPrim
import Verif.Lemmas.RealScales
import Verif.Lemmas.Reduce
import Verif.Lemmas.RootPredict
import Verif.Lemmas.RootUpdate
import Verif.Lemmas.Rotation
import Verif.Lemmas.Scaled
import Verif.Lemmas.Silent
import Verif.Lemmas.SimSetup
import Verif.Lemmas.SimTracks
import Verif.Lemmas.Smoother
import Verif.Lemmas.StateVector
import Verif.Lemmas.Station
import Verif.Lemmas.StationDefined
import Verif.Lemmas.TrackLoop
import Verif.Lemmas.TrackRun
import Verif.Lemmas.Tracks
import Verif.Lemmas.Triangulate
import Verif.Lemmas.Turn
import Verif.Lemmas.UMap
import Verif.Lemmas.Unit
import Verif.Lemmas.UpdaterOps
import Verif.Lemmas.Visible
import Verif.Lemmas.Window
import Verif.Props.C01
import Verif.Props.C02
import Verif.Props.C03
import Verif.Props.C04
import Verif.Props.C05
import Verif.Props.C06
import Verif.Props.C07
import Verif.Props.C08
import Verif.Props.C09
import Verif.Props.C10
import Verif.Props.C100
import Verif.Props.C11
import Verif.Props.C12
import Verif.Props.C13
import Verif.Props.C14
import Verif.Props.C15
import Verif.Props.C16
import Verif.Props.C17
import Verif.Props.C18
import Verif.Props.C19
import Verif.Props.C20
import Verif.Props.C21
import Verif.Props.C22
import Verif.Props.C23
import Verif.Props.C24
import Verif.Props.C25
import Verif.Props.C26
import Verif.Props.C27
import Verif.Props.C27Truth
import Verif.Props.C28
import Verif.Props.C29
import Verif.Props.C30
import Verif.Props.C31
import Verif.Props.C32
import Verif.Props.C33
import Verif.Props.C34
import Verif.Props.C35
import Verif.Props.C36
import Verif.Props.C37
import Verif.Props.C38
import Verif.Props.C39
import Verif.Props.C40
import Verif.Props.C41
import Verif.Props.C42
import Verif.Props.C43
import Verif.Props.C44
import Verif.Props.C45
import Verif.Props.C46
import Verif.Props.C47
import Verif.Props.C47Body
import Verif.Props.C48
import Verif.Props.C49
import Verif.Props.C50
import Verif.Props.C51
import Verif.Props.C52
import Verif.Props.C53
import Verif.Props.C54
import Verif.Props.C55
import Verif.Props.C56
import Verif.Props.C57
import Verif.Props.C58
import Verif.Props.C59
import Verif.Props.C60
import Verif.Props.C61
import Verif.Props.C62
import Verif.Props.C63
import Verif.Props.C64
import Verif.Props.C65
import Verif.Props.C66
import Verif.Props.C67
import Verif.Props.C68
import Verif.Props.C69
import Verif.Props.C70
import Verif.Props.C71
import Verif.Props.C72
import Verif.Props.C73
import Verif.Props.C74
import Verif.Props.C75
import Verif.Props.C76
import Verif.Props.C77
import Verif.Props.C78
import Verif.Props.C79
import Verif.Props.C80
import Verif.Props.C81
import Verif.Props.C82
import Verif.Props.C83
import Verif.Props.C84
import Verif.Props.C85
import Verif.Props.C86
import Verif.Props.C87
import Verif.Props.C88
import Verif.Props.C89
import Verif.Props.C90
import Verif.Props.C91
import Verif.Props.C92
import Verif.Props.C93
import Verif.Props.C94
import Verif.Props.C95
import Verif.Props.C96
import Verif.Props.C97
import Verif.Props.C98
import Verif.Props.C99
import Verif.Props.Station
