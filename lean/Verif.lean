import Verif.Py
import Verif.Single
import Verif.Calc.Model
import Verif.Calc.Props
import Verif.Calc.Cases
import Verif.Vtu.Model
import Verif.Vtu.Spec
import Verif.Vtu.Lemmas
import Verif.Vtu.Props
import Verif.Vtu.Shared
import Verif.Vtu.Again
import Verif.Vtu.Histories
import Verif.Seq.Base
import Verif.Seq.Ops
import Verif.Seq.Files
import Verif.Seq.Logical
import Verif.Seq.StreamLemmas
import Verif.Seq.SimU
import Verif.Seq.SimT
import Verif.Seq.SameView
import Verif.Seq.Decoder
import Verif.Seq.Writer
import Verif.Seq.Bounded
import Verif.Seq.Props
import Verif.Seq.Count
import Verif.Seq.Cases
import Verif.Seq.Floats
import Verif.Parse.Store
import Verif.Parse.Descr
import Verif.Parse.Readers
import Verif.Parse.Parser
import Verif.Parse.Spec
import Verif.Parse.Reads
import Verif.Parse.Bodies
import Verif.Parse.MeansRun
import Verif.Parse.StoreLemmas
import Verif.Parse.Tables
import Verif.Parse.FileSpec
import Verif.Parse.FileRun
import Verif.Parse.ParseRun
import Verif.Parse.FileTheorem
import Verif.Parse.TraceSpec
import Verif.Parse.Trace
import Verif.Parse.Convert
import Verif.Parse.MeansInv
import Verif.Parse.Select
import Verif.Parse.Demo
import Verif.Parse.Props
import Verif.Parse.SelectDemo
import Verif.Parse.Cases
import Verif.Parse.Records
import Verif.Parse.Voids
import Verif.Parse.Terminates
import Verif.Conv.Names
import Verif.Conv.NameSpec
import Verif.Conv.NameLemmas
import Verif.Conv.NameProps
import Verif.Conv.Driver
import Verif.Conv.Spec
import Verif.Conv.Props
import Verif.Conv.Demo
import Verif.Data.Np
import Verif.Data.Struc
import Verif.Data.Spec
import Verif.Data.NpLemmas
import Verif.Data.Select
import Verif.Data.DemoMesh
import Verif.Data.StrucProps
import Verif.Data.ResSpec
import Verif.Data.ResProps
import Verif.Data.ResDemo
import Verif.Data.HierSpec
import Verif.Data.HierProps
import Verif.Data.Elem
import Verif.Data.ElemSpec
import Verif.Data.ElemProps
import Verif.Data.ElemResSpec
import Verif.Data.ElemResProps
import Verif.Data.SectProps
import Verif.Data.ElemDemo
import Verif.Data.ElemCases
import Verif.Data.ElemComplexFail
import Verif.Data.Nd
import Verif.Data.Hydro
import Verif.Data.HydroSpec
import Verif.Data.HydroLemmas
import Verif.Data.HydroProps
import Verif.Data.HydroMore
import Verif.Data.HydroDemo
import Verif.Data.HydroCases
import Verif.Data.HydroOwn
import Verif.Data.HydroOwnProps
import Verif.Data.Life
import Verif.Data.LifeProps
import Verif.Data.LifeOpen
import Verif.Data.LifeAny
import Verif.Data.LifeClosed
import Verif.Data.LifeDemo
import Verif.Data.NamesProps
import Verif.Data.Load
import Verif.Data.LoadSpec
import Verif.Data.LoadLemmas
import Verif.Data.LoadRows
import Verif.Data.LoadProps
import Verif.Data.LoadDemo
import Verif.Data.LoadResults
import Verif.Data.LoadDemo2
import Verif.Data.LoadHydroSpec
import Verif.Data.LoadHydroRows
import Verif.Data.LoadHydroProps
import Verif.Data.LoadHydroDemo
import Verif.Seq.Newline
import Verif.Parse.Newline
import Verif.Parse.Repeats
import Verif.Vtf.Model
import Verif.Vtf.Props
import Verif.Session.Model
import Verif.Session.Spec
import Verif.Session.Open
import Verif.Session.Lower
import Verif.Session.Props
import Verif.Session.Inv
import Verif.Session.Reads
import Verif.Session.Closing
import Verif.Session.Whole
import Verif.Session.Demo
import Verif.Session.WholeDemo
import Verif.Session.Disk
import Verif.Session.DiskDemo
import Verif.Session.AnyRes
import Verif.Session.AnyResDemo
import Verif.Session.ComplexDemo
import Verif.Session.MoreReads
import Verif.Data.AnyRes
import Verif.Data.AnyResDemo
import Verif.Data.AnyDisc
import Verif.Data.BytesProps
import Verif.Session.Print
import Verif.Session.PrintProps
import Verif.Parse.RefuseSpec
import Verif.Parse.RefuseRun
import Verif.Parse.RefuseFile
import Verif.Parse.Left
import Verif.Parse.LeftKeep
import Verif.Parse.LeftSim
import Verif.Parse.Refuse
import Verif.Parse.BadIdent
import Verif.Parse.Cut
import Verif.Parse.CutInside
import Verif.Parse.Padded
import Verif.Parse.Open
import Verif.Conv.Refuse
import Verif.Conv.RefuseDemo
import Verif.Conv.Cases
import Verif.Conv.Paths
import Verif.Conv.Keep
import Verif.Session.Export
import Verif.Session.ExportDemo
import Verif.Session.Stuck
import Verif.Session.Incomplete
import Verif.Session.StuckDemo
import Verif.Export.Model
import Verif.Export.Spec
import Verif.Export.Props
import Verif.Export.Mesh
import Verif.Export.Results
import Verif.Export.Refuse
import Verif.Export.Demo
import Verif.Parse.Carry
import Verif.Parse.History
import Verif.Conv.History
import Verif.Parse.CutLine
import Verif.Parse.CutLineError
import Verif.Parse.LeftArrays
import Verif.NamedCases
import Verif.Session.Cases
import Verif.Session.ComplexRefused
import Verif.Parse.MisfitDemo
import Verif.Conv.ListedMemory
