import Verif.AngleNorm
import Verif.AngleText
import Verif.Apsides
import Verif.AutoPtr
import Verif.AutoPtrSpec
import Verif.CBase
import Verif.Calendar
import Verif.CalendarFp
import Verif.CalendarInt
import Verif.CalendarSpec
import Verif.City
import Verif.CityData
import Verif.CityIndex
import Verif.ClockLemmas
import Verif.ClockSpec
import Verif.Compare
import Verif.CopyAlgo
import Verif.DateText
import Verif.DayTables
import Verif.DeltaT
import Verif.DeltaTReal
import Verif.Deque
import Verif.DequeBulk
import Verif.DequeBulkErase
import Verif.DequeBulkFill
import Verif.DequeBulkIns
import Verif.DequeBulkLemmas
import Verif.DequeInit
import Verif.DequeLemmas
import Verif.DequeMid
import Verif.DequeMove
import Verif.DequeMoveSpec
import Verif.DequeOps
import Verif.DequeSpec
import Verif.DoubleSpec
import Verif.Dtoa
import Verif.DtoaSpec
import Verif.EclipseBrowse
import Verif.EclipseLimits
import Verif.EclipseReport
import Verif.EclipseSearch
import Verif.EclipseTable
import Verif.EphTables
import Verif.EqTime
import Verif.Era
import Verif.EraData
import Verif.EraSpec
import Verif.Festival
import Verif.FestivalData
import Verif.FestivalSpec
import Verif.FestivalSpec2
import Verif.FloorLemmas
import Verif.Fp
import Verif.FpLemmas
import Verif.GanZhi
import Verif.GanZhiSpec
import Verif.Geom
import Verif.Grisu
import Verif.GrisuBound
import Verif.GrisuData
import Verif.GrisuDigits
import Verif.GrisuTable
import Verif.HashFun
import Verif.HashMultiSpec
import Verif.HashSpec
import Verif.HashTable
import Verif.HighTime
import Verif.Hijri
import Verif.HijriLemmas
import Verif.HijriSpec
import Verif.InplaceMerge
import Verif.Iterators
import Verif.Itoa
import Verif.ItoaLemmas
import Verif.LimbPoint
import Verif.ListClient
import Verif.ListErase
import Verif.ListModel
import Verif.ListOps
import Verif.ListRep
import Verif.ListSort
import Verif.ListSpec
import Verif.ListSplice
import Verif.ListStep
import Verif.ListWalk
import Verif.ListWorld
import Verif.Longitude
import Verif.LowSeries
import Verif.LunarEclipse
import Verif.LunarSpec
import Verif.LunarYear
import Verif.MapSpec
import Verif.MeanEraSpec
import Verif.MinSec
import Verif.ModernSpec
import Verif.MonthEvents
import Verif.MonthEventsSpec
import Verif.MonthLemmas
import Verif.MonthSheet
import Verif.MultiSpec
import Verif.NthElement
import Verif.NumText
import Verif.Numeric
import Verif.OrderSpec
import Verif.Permute
import Verif.PermuteSpec
import Verif.PlanetPanel
import Verif.PrattData
import Verif.Precession
import Verif.PriorityQueue
import Verif.Props.AngleNorm
import Verif.Props.AngleText
import Verif.Props.Apsides
import Verif.Props.ApsidesTimes
import Verif.Props.Arrange
import Verif.Props.AutoPtr
import Verif.Props.Calendar
import Verif.Props.City
import Verif.Props.Compare
import Verif.Props.Contact
import Verif.Props.CopyAlgo
import Verif.Props.DayTables
import Verif.Props.DeltaT
import Verif.Props.DeltaTReal
import Verif.Props.Deque
import Verif.Props.DequeBulk
import Verif.Props.DequeMove
import Verif.Props.Dtoa
import Verif.Props.EclipseBrowse
import Verif.Props.EclipseCentre
import Verif.Props.EclipseLimits
import Verif.Props.EclipseLimits2
import Verif.Props.EclipseReport
import Verif.Props.EclipseSearch
import Verif.Props.EclipseTable
import Verif.Props.EqTime
import Verif.Props.EqTime2
import Verif.Props.EqTimeAngle
import Verif.Props.Era
import Verif.Props.Festival
import Verif.Props.Festival2
import Verif.Props.GanZhi
import Verif.Props.Geom
import Verif.Props.GeomCut
import Verif.Props.Grisu
import Verif.Props.Hash
import Verif.Props.HashBase
import Verif.Props.HashErase
import Verif.Props.HashFun
import Verif.Props.HashMulti
import Verif.Props.HashOps
import Verif.Props.HashPrimes
import Verif.Props.HashUnique
import Verif.Props.HashWalk
import Verif.Props.Heap
import Verif.Props.HighMonth
import Verif.Props.HighTime
import Verif.Props.Hijri
import Verif.Props.InplaceMerge
import Verif.Props.Iterators
import Verif.Props.LimbPoint
import Verif.Props.List
import Verif.Props.LonEarth
import Verif.Props.LonFastMoon
import Verif.Props.LonFastSun
import Verif.Props.LonMonth
import Verif.Props.LonMoon
import Verif.Props.LonMoonNear
import Verif.Props.LonMoonSolve
import Verif.Props.LonMoonSpeed
import Verif.Props.LonMoonTime
import Verif.Props.LonNear
import Verif.Props.LonNut
import Verif.Props.LonSun
import Verif.Props.LonSunTime
import Verif.Props.LowSeries
import Verif.Props.Lunar
import Verif.Props.LunarAncient
import Verif.Props.LunarContact
import Verif.Props.LunarContact2
import Verif.Props.LunarDay
import Verif.Props.LunarDemo
import Verif.Props.LunarEclipse
import Verif.Props.LunarEra
import Verif.Props.LunarHistory
import Verif.Props.LunarMean
import Verif.Props.LunarSheet
import Verif.Props.Map
import Verif.Props.MapWorld
import Verif.Props.MinSec
import Verif.Props.Modern
import Verif.Props.Month
import Verif.Props.MonthEvents
import Verif.Props.MoonTimes
import Verif.Props.Multi
import Verif.Props.NewMoonTime
import Verif.Props.Nodes
import Verif.Props.NthElement
import Verif.Props.NumText
import Verif.Props.Numeric
import Verif.Props.PlanetPanel
import Verif.Props.Precession
import Verif.Props.PriorityQueue
import Verif.Props.RangeAlgo
import Verif.Props.RangePerm
import Verif.Props.RefineTime
import Verif.Props.Reverse
import Verif.Props.RiseSet
import Verif.Props.RotateCycle
import Verif.Props.RotateSwap
import Verif.Props.Scan
import Verif.Props.Search
import Verif.Props.Series
import Verif.Props.SetAlgo
import Verif.Props.SkyDiff
import Verif.Props.SkyPanel
import Verif.Props.SkyText
import Verif.Props.SolarEclipse
import Verif.Props.SolarLocal
import Verif.Props.Sort
import Verif.Props.Ssq
import Verif.Props.SsqArg
import Verif.Props.SsqMean
import Verif.Props.StaticArray
import Verif.Props.Strings
import Verif.Props.Subseq
import Verif.Props.SunTimes
import Verif.Props.SunTimes2
import Verif.Props.SunTimes3
import Verif.Props.TempBuffer
import Verif.Props.Uninit
import Verif.Props.Vector
import Verif.Props.VectorLemmas
import Verif.Props.VectorOps
import Verif.Props.YearText
import Verif.Props.YearTextParts
import Verif.RangeAlgo
import Verif.RbClient
import Verif.RbCopy
import Verif.RbDepth
import Verif.RbErase
import Verif.RbInsert
import Verif.RbMap
import Verif.RbMap2
import Verif.RbMap3
import Verif.RbMap4
import Verif.RbMap5
import Verif.RbMap6
import Verif.RbMap7
import Verif.RbMulti
import Verif.RbMulti1
import Verif.RbMulti2
import Verif.RbMulti3
import Verif.RbRep
import Verif.RbRotate
import Verif.RbSpec
import Verif.RbTree
import Verif.RbUnlink
import Verif.RbUnlink2
import Verif.RbWorld
import Verif.RiseSet
import Verif.Scan
import Verif.ScanSpec
import Verif.Search
import Verif.Series
import Verif.SetAlgo
import Verif.SkyDiff
import Verif.SkyPanel
import Verif.SkyText
import Verif.SolarEclipse
import Verif.SolarLocal
import Verif.Sort
import Verif.SsqCalc
import Verif.SsqData
import Verif.SsqSpec
import Verif.StaticArray
import Verif.StrOps
import Verif.StrSpec
import Verif.SunTimes
import Verif.TempBuffer
import Verif.Text
import Verif.Uninit
import Verif.Vector
import Verif.VectorSpec
import Verif.YearText
import Verif.YearTextSpec
