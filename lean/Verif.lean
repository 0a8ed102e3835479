import Verif.Base
import Verif.Lemmas.Activation
import Verif.Lemmas.ActivationDeriv
import Verif.Lemmas.ActivationNull
import Verif.Lemmas.Advance
import Verif.Lemmas.Ann
import Verif.Lemmas.AnnBack
import Verif.Lemmas.AnnMath
import Verif.Lemmas.AnnOpt
import Verif.Lemmas.AnnOptRules
import Verif.Lemmas.AnnOptStart
import Verif.Lemmas.AnnOptStep
import Verif.Lemmas.AnnOptTrain
import Verif.Lemmas.AnnTrain
import Verif.Lemmas.AutoEncoder
import Verif.Lemmas.Base
import Verif.Lemmas.BernoulliNb
import Verif.Lemmas.Build
import Verif.Lemmas.Cholesky
import Verif.Lemmas.Collect
import Verif.Lemmas.Conv3
import Verif.Lemmas.Convolutions
import Verif.Lemmas.Cost
import Verif.Lemmas.Cov
import Verif.Lemmas.Cow
import Verif.Lemmas.CowOps
import Verif.Lemmas.Csv
import Verif.Lemmas.Dct
import Verif.Lemmas.DualSvc
import Verif.Lemmas.Eigen
import Verif.Lemmas.EigenMath
import Verif.Lemmas.Elementwise
import Verif.Lemmas.ElementwiseSpec
import Verif.Lemmas.Example
import Verif.Lemmas.ExampleTen
import Verif.Lemmas.ExpReg
import Verif.Lemmas.Fill
import Verif.Lemmas.Filters
import Verif.Lemmas.Gan
import Verif.Lemmas.GanBase
import Verif.Lemmas.GanBuild
import Verif.Lemmas.GanMath
import Verif.Lemmas.GanTrain
import Verif.Lemmas.GaussianNb
import Verif.Lemmas.Gelu
import Verif.Lemmas.Glm
import Verif.Lemmas.GlmAdaptive
import Verif.Lemmas.GlmBatch
import Verif.Lemmas.GlmExample
import Verif.Lemmas.GlmMath
import Verif.Lemmas.GlmSgd
import Verif.Lemmas.GlmTrain
import Verif.Lemmas.Gradients
import Verif.Lemmas.GramSchmidt
import Verif.Lemmas.Grid
import Verif.Lemmas.Handle
import Verif.Lemmas.HandleM
import Verif.Lemmas.Harris
import Verif.Lemmas.HashMap
import Verif.Lemmas.HashSet
import Verif.Lemmas.Image
import Verif.Lemmas.KMeans
import Verif.Lemmas.KMeansInit
import Verif.Lemmas.Kronecker
import Verif.Lemmas.Layers
import Verif.Lemmas.Lift
import Verif.Lemmas.LiftSpec
import Verif.Lemmas.LinAlgDet
import Verif.Lemmas.LinAlgMatrix
import Verif.Lemmas.Lists
import Verif.Lemmas.Lsa
import Verif.Lemmas.Mann
import Verif.Lemmas.MannMath
import Verif.Lemmas.Matrix
import Verif.Lemmas.MatrixDet
import Verif.Lemmas.MatrixInv
import Verif.Lemmas.MatrixOps
import Verif.Lemmas.Mlp
import Verif.Lemmas.MlpMath
import Verif.Lemmas.MultinomialNb
import Verif.Lemmas.NaiveBayes
import Verif.Lemmas.New
import Verif.Lemmas.NewJunk
import Verif.Lemmas.NumAnalysis
import Verif.Lemmas.Pca
import Verif.Lemmas.Pool
import Verif.Lemmas.Reduce
import Verif.Lemmas.Reg
import Verif.Lemmas.RegDeriv
import Verif.Lemmas.RowApi
import Verif.Lemmas.RowCells
import Verif.Lemmas.RowOps
import Verif.Lemmas.Rows
import Verif.Lemmas.Silhouette
import Verif.Lemmas.SliceApi
import Verif.Lemmas.Slices
import Verif.Lemmas.Softmax
import Verif.Lemmas.SoftmaxMath
import Verif.Lemmas.SoftmaxNet
import Verif.Lemmas.SoftmaxNetMath
import Verif.Lemmas.SoftmaxReg
import Verif.Lemmas.SoftmaxUb
import Verif.Lemmas.Sort
import Verif.Lemmas.SortHeap
import Verif.Lemmas.Stat
import Verif.Lemmas.StdVector
import Verif.Lemmas.Svc
import Verif.Lemmas.Svd
import Verif.Lemmas.Svm
import Verif.Lemmas.TenSlices
import Verif.Lemmas.Text
import Verif.Lemmas.Thread
import Verif.Lemmas.TwoLayer
import Verif.Lemmas.Unique
import Verif.Lemmas.VecSpec
import Verif.Lemmas.Vector
import Verif.Lemmas.VectorApi
import Verif.Lemmas.Wgan
import Verif.Lemmas.WordToVec
import Verif.Model.Activation
import Verif.Model.Ann
import Verif.Model.AnnOpt
import Verif.Model.AutoEncoder
import Verif.Model.BernoulliNb
import Verif.Model.Convolutions
import Verif.Model.Cost
import Verif.Model.Cow
import Verif.Model.Csv
import Verif.Model.Data
import Verif.Model.DualSvc
import Verif.Model.Eigen
import Verif.Model.Elementwise
import Verif.Model.ExpReg
import Verif.Model.Gan
import Verif.Model.GaussianNb
import Verif.Model.Glm
import Verif.Model.GlmSetters
import Verif.Model.Handle
import Verif.Model.HandleM
import Verif.Model.HashMap
import Verif.Model.HashSet
import Verif.Model.Image
import Verif.Model.KMeans
import Verif.Model.KMeansLife
import Verif.Model.KNNLife
import Verif.Model.LayerSetters
import Verif.Model.Layers
import Verif.Model.LinAlg
import Verif.Model.LinAlgMatrix
import Verif.Model.Lsa
import Verif.Model.Mann
import Verif.Model.Matrix
import Verif.Model.MatrixApi
import Verif.Model.Mlp
import Verif.Model.MultiSetters
import Verif.Model.MultinomialNb
import Verif.Model.NaiveBayes
import Verif.Model.NumAnalysis
import Verif.Model.OutputSetters
import Verif.Model.Pca
import Verif.Model.Reg
import Verif.Model.SecondTest
import Verif.Model.Simple
import Verif.Model.Softmax
import Verif.Model.SoftmaxJacobians
import Verif.Model.SoftmaxNet
import Verif.Model.SoftmaxReg
import Verif.Model.SoftmaxSetters
import Verif.Model.Sort
import Verif.Model.Stat
import Verif.Model.StdVec
import Verif.Model.Stemming
import Verif.Model.Svc
import Verif.Model.SvcLife
import Verif.Model.TanhLife
import Verif.Model.Tensor
import Verif.Model.TensorApi
import Verif.Model.Text
import Verif.Model.TwoLayer
import Verif.Model.UniLinRegLife
import Verif.Model.Utilities
import Verif.Model.Vector
import Verif.Model.VectorApi
import Verif.Model.WordToVec
import Verif.Props.ActivationDeriv
import Verif.Props.ActivationLift
import Verif.Props.ActivationValue
import Verif.Props.Ann
import Verif.Props.AnnOpt
import Verif.Props.AutoEncoder
import Verif.Props.BagOfWords
import Verif.Props.BernoulliNb
import Verif.Props.Containers
import Verif.Props.Convolution2d
import Verif.Props.Cost
import Verif.Props.CostDeriv
import Verif.Props.CostMore
import Verif.Props.CostReg
import Verif.Props.Cow
import Verif.Props.Csv
import Verif.Props.DataScaling
import Verif.Props.DataSplit
import Verif.Props.Dct
import Verif.Props.DualSvc
import Verif.Props.Eigen
import Verif.Props.Euler
import Verif.Props.ExpReg
import Verif.Props.Gan
import Verif.Props.GaussianNb
import Verif.Props.GlmAdaptive
import Verif.Props.GlmCloglogBatch
import Verif.Props.GlmDescent
import Verif.Props.GlmNewton
import Verif.Props.GlmNormal
import Verif.Props.GlmPredict
import Verif.Props.GlmSetters
import Verif.Props.GlmStochastic
import Verif.Props.HashMap
import Verif.Props.HashSet
import Verif.Props.ImageFilters
import Verif.Props.Images
import Verif.Props.ImagesSides
import Verif.Props.ImagesTensor
import Verif.Props.KMeans
import Verif.Props.KMeansLife
import Verif.Props.KNN
import Verif.Props.KNNLife
import Verif.Props.LayerLife
import Verif.Props.Layers
import Verif.Props.LayersOverflow
import Verif.Props.LinAlgElementwise
import Verif.Props.LinAlgFactor
import Verif.Props.LinAlgMore
import Verif.Props.LinAlgProducts
import Verif.Props.Loading
import Verif.Props.Lsa
import Verif.Props.Mann
import Verif.Props.MatrixAlgebra
import Verif.Props.MatrixElementwise
import Verif.Props.MatrixKronecker
import Verif.Props.MatrixProduct
import Verif.Props.MatrixRows
import Verif.Props.Metrics
import Verif.Props.MiniBatches
import Verif.Props.MiniBatchesMatrix
import Verif.Props.Mlp
import Verif.Props.MlpLife
import Verif.Props.MultiLife
import Verif.Props.MultinomialNb
import Verif.Props.NumApprox
import Verif.Props.NumDiff
import Verif.Props.NumHessian
import Verif.Props.OneHot
import Verif.Props.OutlierFinder
import Verif.Props.OutputLife
import Verif.Props.Pca
import Verif.Props.Performance
import Verif.Props.Pooling
import Verif.Props.RootFinding
import Verif.Props.Scores
import Verif.Props.SecondTest
import Verif.Props.Silhouette
import Verif.Props.Softmax
import Verif.Props.SoftmaxJacobians
import Verif.Props.SoftmaxLife
import Verif.Props.SoftmaxNet
import Verif.Props.SoftmaxReg
import Verif.Props.StatMeans
import Verif.Props.StatMoments
import Verif.Props.StatOrder
import Verif.Props.StdVec
import Verif.Props.Stemming
import Verif.Props.Svc
import Verif.Props.SvcLife
import Verif.Props.Svd
import Verif.Props.TanhLife
import Verif.Props.TensorMore
import Verif.Props.TensorOps
import Verif.Props.TensorSlices
import Verif.Props.Text
import Verif.Props.Tfidf
import Verif.Props.UniLinReg
import Verif.Props.UniLinRegLife
import Verif.Props.VectorContainer
import Verif.Props.VectorElementwise
import Verif.Props.VectorMisc
import Verif.Props.VectorReduce
import Verif.Props.VectorSort
import Verif.Props.WeightInit
import Verif.Props.Wgan
import Verif.Props.WordToVec
import Verif.Real
import Verif.Scalar
import Verif.Spec.Activation
import Verif.Spec.ActivationValue
import Verif.Spec.Ann
import Verif.Spec.AnnOpt
import Verif.Spec.Batches
import Verif.Spec.BernoulliNb
import Verif.Spec.Classification
import Verif.Spec.Convolutions
import Verif.Spec.Cost
import Verif.Spec.Cow
import Verif.Spec.DualSvc
import Verif.Spec.Eigen
import Verif.Spec.Elementwise
import Verif.Spec.ExpReg
import Verif.Spec.Gan
import Verif.Spec.Glm
import Verif.Spec.Handle
import Verif.Spec.HashMap
import Verif.Spec.HashSet
import Verif.Spec.Image
import Verif.Spec.KMeans
import Verif.Spec.KMeansLife
import Verif.Spec.KNNLife
import Verif.Spec.LayerLife
import Verif.Spec.Layers
import Verif.Spec.Lift
import Verif.Spec.Mann
import Verif.Spec.Matrix
import Verif.Spec.Mlp
import Verif.Spec.MlpLife
import Verif.Spec.MultiLife
import Verif.Spec.MultinomialNb
import Verif.Spec.NaiveBayes
import Verif.Spec.NumAnalysis
import Verif.Spec.OutputLife
import Verif.Spec.Pca
import Verif.Spec.Rows
import Verif.Spec.Silhouette
import Verif.Spec.Slices
import Verif.Spec.Softmax
import Verif.Spec.SoftmaxLife
import Verif.Spec.SoftmaxReg
import Verif.Spec.Stat
import Verif.Spec.Svc
import Verif.Spec.SvcLife
import Verif.Spec.TanhLife
import Verif.Spec.Tensor
import Verif.Spec.Text
import Verif.Spec.Transforms
import Verif.Spec.TwoLayer
import Verif.Spec.UniLinRegLife
import Verif.Spec.Vector
