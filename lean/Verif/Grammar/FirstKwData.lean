-- GENERATED by /verif/tools/gen_fk.py; do not edit.
import Verif.Grammar.Kinds
/-!
# First operation keyword of a rule (data)

Not part of the code; checked by the kernel in `Verif.Grammar.FirstKw`.
-/
namespace Verif.Grammar

def fkTree : KTree Nat :=
  (.br 263
   (.br 223
    (.br 203
     (.br 193
      (.br 188
       (.br 186
        (.br 185
         (.leaf 184 1)
         (.leaf 185 1))
        (.br 187
         (.leaf 186 4)
         (.leaf 187 1)))
       (.br 190
        (.br 189
         (.leaf 188 1)
         (.leaf 189 1))
        (.br 191
         (.leaf 190 1)
         (.br 192
          (.leaf 191 4)
          (.leaf 192 6)))))
      (.br 198
       (.br 195
        (.br 194
         (.leaf 193 6)
         (.leaf 194 4))
        (.br 196
         (.leaf 195 4)
         (.br 197
          (.leaf 196 4)
          (.leaf 197 4))))
       (.br 200
        (.br 199
         (.leaf 198 1)
         (.leaf 199 4))
        (.br 201
         (.leaf 200 5)
         (.br 202
          (.leaf 201 5)
          (.leaf 202 1))))))
     (.br 213
      (.br 208
       (.br 205
        (.br 204
         (.leaf 203 4)
         (.leaf 204 5))
        (.br 206
         (.leaf 205 4)
         (.br 207
          (.leaf 206 4)
          (.leaf 207 4))))
       (.br 210
        (.br 209
         (.leaf 208 4)
         (.leaf 209 4))
        (.br 211
         (.leaf 210 4)
         (.br 212
          (.leaf 211 4)
          (.leaf 212 5)))))
      (.br 218
       (.br 215
        (.br 214
         (.leaf 213 5)
         (.leaf 214 5))
        (.br 216
         (.leaf 215 5)
         (.br 217
          (.leaf 216 4)
          (.leaf 217 5))))
       (.br 220
        (.br 219
         (.leaf 218 5)
         (.leaf 219 5))
        (.br 221
         (.leaf 220 5)
         (.br 222
          (.leaf 221 5)
          (.leaf 222 5)))))))
    (.br 243
     (.br 233
      (.br 228
       (.br 225
        (.br 224
         (.leaf 223 5)
         (.leaf 224 4))
        (.br 226
         (.leaf 225 4)
         (.br 227
          (.leaf 226 4)
          (.leaf 227 2))))
       (.br 230
        (.br 229
         (.leaf 228 2)
         (.leaf 229 2))
        (.br 231
         (.leaf 230 2)
         (.br 232
          (.leaf 231 2)
          (.leaf 232 2)))))
      (.br 238
       (.br 235
        (.br 234
         (.leaf 233 2)
         (.leaf 234 2))
        (.br 236
         (.leaf 235 2)
         (.br 237
          (.leaf 236 2)
          (.leaf 237 2))))
       (.br 240
        (.br 239
         (.leaf 238 2)
         (.leaf 239 4))
        (.br 241
         (.leaf 240 4)
         (.br 242
          (.leaf 241 4)
          (.leaf 242 4))))))
     (.br 253
      (.br 248
       (.br 245
        (.br 244
         (.leaf 243 4)
         (.leaf 244 2))
        (.br 246
         (.leaf 245 2)
         (.br 247
          (.leaf 246 4)
          (.leaf 247 4))))
       (.br 250
        (.br 249
         (.leaf 248 4)
         (.leaf 249 4))
        (.br 251
         (.leaf 250 5)
         (.br 252
          (.leaf 251 4)
          (.leaf 252 4)))))
      (.br 258
       (.br 255
        (.br 254
         (.leaf 253 4)
         (.leaf 254 4))
        (.br 256
         (.leaf 255 4)
         (.br 257
          (.leaf 256 4)
          (.leaf 257 4))))
       (.br 260
        (.br 259
         (.leaf 258 4)
         (.leaf 259 4))
        (.br 261
         (.leaf 260 5)
         (.br 262
          (.leaf 261 4)
          (.leaf 262 5))))))))
   (.br 302
    (.br 282
     (.br 272
      (.br 267
       (.br 265
        (.br 264
         (.leaf 263 5)
         (.leaf 264 5))
        (.br 266
         (.leaf 265 5)
         (.leaf 266 5)))
       (.br 269
        (.br 268
         (.leaf 267 5)
         (.leaf 268 5))
        (.br 270
         (.leaf 269 4)
         (.br 271
          (.leaf 270 4)
          (.leaf 271 4)))))
      (.br 277
       (.br 274
        (.br 273
         (.leaf 272 4)
         (.leaf 273 4))
        (.br 275
         (.leaf 274 4)
         (.br 276
          (.leaf 275 4)
          (.leaf 276 5))))
       (.br 279
        (.br 278
         (.leaf 277 5)
         (.leaf 278 4))
        (.br 280
         (.leaf 279 4)
         (.br 281
          (.leaf 280 4)
          (.leaf 281 4))))))
     (.br 292
      (.br 287
       (.br 284
        (.br 283
         (.leaf 282 4)
         (.leaf 283 4))
        (.br 285
         (.leaf 284 4)
         (.br 286
          (.leaf 285 4)
          (.leaf 286 4))))
       (.br 289
        (.br 288
         (.leaf 287 4)
         (.leaf 288 4))
        (.br 290
         (.leaf 289 4)
         (.br 291
          (.leaf 290 4)
          (.leaf 291 4)))))
      (.br 297
       (.br 294
        (.br 293
         (.leaf 292 4)
         (.leaf 293 4))
        (.br 295
         (.leaf 294 4)
         (.br 296
          (.leaf 295 4)
          (.leaf 296 4))))
       (.br 299
        (.br 298
         (.leaf 297 4)
         (.leaf 298 4))
        (.br 300
         (.leaf 299 4)
         (.br 301
          (.leaf 300 4)
          (.leaf 301 4)))))))
    (.br 324
     (.br 312
      (.br 307
       (.br 304
        (.br 303
         (.leaf 302 4)
         (.leaf 303 4))
        (.br 305
         (.leaf 304 4)
         (.br 306
          (.leaf 305 4)
          (.leaf 306 4))))
       (.br 309
        (.br 308
         (.leaf 307 4)
         (.leaf 308 4))
        (.br 310
         (.leaf 309 4)
         (.br 311
          (.leaf 310 4)
          (.leaf 311 4)))))
      (.br 319
       (.br 315
        (.br 314
         (.leaf 312 4)
         (.leaf 314 4))
        (.br 316
         (.leaf 315 4)
         (.br 317
          (.leaf 316 4)
          (.leaf 317 4))))
       (.br 321
        (.br 320
         (.leaf 319 4)
         (.leaf 320 5))
        (.br 322
         (.leaf 321 5)
         (.br 323
          (.leaf 322 5)
          (.leaf 323 5))))))
     (.br 334
      (.br 329
       (.br 326
        (.br 325
         (.leaf 324 5)
         (.leaf 325 5))
        (.br 327
         (.leaf 326 5)
         (.br 328
          (.leaf 327 4)
          (.leaf 328 4))))
       (.br 331
        (.br 330
         (.leaf 329 5)
         (.leaf 330 5))
        (.br 332
         (.leaf 331 4)
         (.br 333
          (.leaf 332 4)
          (.leaf 333 4)))))
      (.br 339
       (.br 336
        (.br 335
         (.leaf 334 5)
         (.leaf 335 5))
        (.br 337
         (.leaf 336 5)
         (.br 338
          (.leaf 337 5)
          (.leaf 338 5))))
       (.br 341
        (.br 340
         (.leaf 339 5)
         (.leaf 340 5))
        (.br 342
         (.leaf 341 4)
         (.br 343
          (.leaf 342 4)
          (.leaf 343 4)))))))))

end Verif.Grammar
